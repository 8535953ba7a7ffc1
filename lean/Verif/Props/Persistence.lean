import Verif.Spec.Persistence
import Verif.Props.Diagrams
import Verif.Props.MapperCluster
import Verif.Props.Validation
import Mathlib.Data.Rat.Floor

set_option autoImplicit false
set_option linter.unusedSectionVars false

/-!
# C80, C88 to C91: the persistent homology transformers around their engines
-/

namespace Gtda.Props
open Gtda.Py Gtda.Parallel Gtda.Diagrams Gtda.Persistence Gtda.Spec Gtda.Validation

section
variable {V S : Type} [LinearOrder V]

theorem fit_ok (hd : List Nat) (infv : Option V) (default : V) (lo hi : Nat) (hlo : IsSmallest hd lo) (hhi : IsLargest hd hi) :
    fit hd infv default = .ok ⟨hd.insertionSort (· ≤ ·), lo, hi, infv.getD default⟩ := by
  have hs : (hd.insertionSort (· ≤ ·)).Pairwise (· ≤ ·) := List.pairwise_insertionSort _ _
  have hp : (hd.insertionSort (· ≤ ·)).Perm hd := List.perm_insertionSort _ _
  have hne : hd.insertionSort (· ≤ ·) ≠ [] := by
    intro h
    have := hp.mem_iff.2 hlo.1
    rw [h] at this
    cases this
  obtain ⟨a, t, hat⟩ := List.exists_cons_of_ne_nil hne
  have ha : a = lo := by
    apply le_antisymm
    · have hm := hp.mem_iff.2 hlo.1
      rw [hat] at hm hs
      rcases List.mem_cons.1 hm with h | h
      · exact h ▸ le_refl _
      · exact (List.pairwise_cons.1 hs).1 _ h
    · exact hlo.2 a (hp.mem_iff.1 (by rw [hat]; simp))
  have hb : (hd.insertionSort (· ≤ ·)).getLast hne = hi := by
    apply le_antisymm
    · exact hhi.2 _ (hp.mem_iff.1 (List.getLast_mem hne))
    · have hm := hp.mem_iff.2 hhi.1
      obtain ⟨l, hl⟩ := List.getElem_of_mem hm
      obtain ⟨hl1, hl2⟩ := hl
      rw [List.getLast_eq_getElem, ← hl2]
      by_cases h : l = (hd.insertionSort (· ≤ ·)).length - 1
      · exact le_of_eq (by congr 1)
      · exact List.pairwise_iff_getElem.1 hs _ _ hl1 _ (by omega)
  unfold fit
  simp only
  rw [List.getLast?_eq_getLast_of_ne_nil hne, hb, hat]
  simp only [List.head?_cons, ha]
  cases infv <;> rfl

theorem fit_nil (infv : Option V) (default : V) : fit [] infv default = .error .indexError := rfl

theorem exists_extremes (hd : List Nat) (h : hd ≠ []) : (∃ lo, IsSmallest hd lo) ∧ ∃ hi, IsLargest hd hi := by
  induction hd with
  | nil => exact absurd rfl h
  | cons a t ih =>
    by_cases ht : t = []
    · subst ht; exact ⟨⟨a, by simp [IsSmallest]⟩, ⟨a, by simp [IsLargest]⟩⟩
    · obtain ⟨⟨lo, h1, h2⟩, hi, h3, h4⟩ := ih ht
      refine ⟨⟨min a lo, ?_, ?_⟩, ⟨max a hi, ?_, ?_⟩⟩
      · rcases min_choice a lo with h | h <;> rw [h] <;> simp [h1]
      · intro p hp
        rcases List.mem_cons.1 hp with rfl | hp
        · exact min_le_left _ _
        · exact (min_le_right _ _).trans (h2 p hp)
      · rcases max_choice a hi with h | h <;> rw [h] <;> simp [h3]
      · intro p hp
        rcases List.mem_cons.1 hp with rfl | hp
        · exact le_max_left _ _
        · exact (h4 p hp).trans (le_max_right _ _)

theorem transform_eq (fmt : Format) (diagram : Fitted V → S → RawDiagram V) (zero lowest : V) (reduced : Bool) (garbage : Nat → Nat → Pt V Nat) (order : List Nat) (f : Fitted V)
    (X : List S) (horder : ∀ i, i < X.length → i ∈ order) :
    transform fmt diagram zero lowest reduced garbage order f X = postprocess fmt f.dims f.inf zero lowest reduced garbage (X.map (diagram f)) := by
  unfold transform
  rw [scheduled_ok _ _ (by simpa using horder), List.mapM_map]
  have : ∀ l : List S, (l.mapM fun x => (Except.ok (diagram f x) : PyM _)) = .ok (l.map (diagram f)) := by
    intro l
    induction l with
    | nil => rfl
    | cons a t ih => rw [List.mapM_cons, ih]; rfl
  show ((X.mapM fun x => (Except.ok (diagram f x) : PyM _)) >>= _) = _
  rw [this]
  rfl

theorem expectedBars_eq (inf zero lowest : V) (reduced : Bool) (D : RawDiagram V) (q : Nat) :
    expectedBars inf zero lowest reduced D q =
      reportedBars inf zero lowest (if q = 0 ∧ reduced = true then withoutOne D (rawBars D q) else rawBars D q) := by
  show List.filterMap (fun r : Raw V × Raw V => if replaceRaw inf zero lowest r.1 < replaceRaw inf zero lowest r.2 then
    some (replaceRaw inf zero lowest r.1, replaceRaw inf zero lowest r.2) else none) _ = _
  unfold reportedBars
  generalize (if q = 0 ∧ reduced = true then withoutOne D (rawBars D q) else rawBars D q) = l
  induction l with
  | nil => rfl
  | cons a t ih =>
    rw [List.filterMap_cons, List.map_cons, List.filter_cons, ih]
    by_cases h : replaceRaw inf zero lowest a.1 < replaceRaw inf zero lowest a.2 <;> simp [h]

/-- The output for one sample, given what the engine returned. -/
theorem transform_spec (fmt : Format) (diagram : Fitted V → S → RawDiagram V) (zero lowest : V) (reduced : Bool) (garbage : Nat → Nat → Pt V Nat) (order : List Nat)
    (hd : List Nat) (hnd : hd.Nodup) (infv : Option V) (default : V) (lo hi : Nat) (hlo : IsSmallest hd lo) (hhi : IsLargest hd hi)
    (X : List S) (hX : X ≠ []) (horder : ∀ i, i < X.length → i ∈ order) (f : Fitted V) (hf : f = ⟨hd.insertionSort (· ≤ ·), lo, hi, infv.getD default⟩)
    (hw : ∀ x ∈ X, WellFormed fmt hd (diagram f x)) :
    ∃ R, fitTransform fmt diagram hd infv default zero lowest reduced garbage order X = .ok R ∧ R.length = X.length ∧
      ∀ (i : Nat) x D', X[i]? = some x → R[i]? = some D' → (∀ p ∈ D', p.q ∈ hd) ∧ ∀ q ∈ hd, ∃ pads : List (Pt V Nat),
        pointsIn D' q = ((expectedBars (infv.getD default) zero lowest reduced (diagram f x) q).map fun v => ⟨v.1, v.2, q⟩) ++ pads ∧ ∀ p ∈ pads, p.b = p.d := by
  have hp : (hd.insertionSort (· ≤ ·)).Perm hd := List.perm_insertionSort _ _
  have hw' : ∀ D ∈ X.map (diagram f), WellFormed fmt (hd.insertionSort (· ≤ ·)) D := by
    intro D hD
    obtain ⟨x, hx, rfl⟩ := List.mem_map.1 hD
    have := hw x hx
    revert this
    generalize diagram f x = D
    cases D <;> cases fmt <;> simp [WellFormed, hp.mem_iff]
  obtain ⟨R, hR, hl, h⟩ := C20_postprocess fmt (hd.insertionSort (· ≤ ·)) (infv.getD default) zero lowest reduced garbage (X.map (diagram f)) (by simpa using hX)
    (hp.nodup_iff.2 hnd) hw'
  refine ⟨R, ?_, by simpa using hl, ?_⟩
  · unfold fitTransform
    rw [fit_ok hd infv default lo hi hlo hhi, ok_bind, transform_eq _ _ _ _ _ _ _ _ _ horder, ← hf]
    rw [hf] at hR ⊢
    exact hR
  · intro i x D' hx hD'
    obtain ⟨h1, h2⟩ := h i (diagram f x) D' (by simp [hx]) hD'
    exact ⟨fun p hp' => hp.mem_iff.1 (h1 p hp'), fun q hq => h2 q (hp.mem_iff.2 hq)⟩

/-! ### C80: alignment of flagser's output with homology dimensions -/

/-- **C80.** Whatever the engine returns for the dimensions from the smallest to the largest requested one, however few or many they are, the transformer does not fail, and in the
requested dimension `q` the output has the bars of entry `q - lo` of that list (no bars if there is no such entry), followed by points on the diagonal. -/
theorem C80_flagser (engine : Nat → Nat → S → List (List (Raw V × Raw V))) (zero lowest : V) (reduced : Bool) (garbage : Nat → Nat → Pt V Nat) (order : List Nat)
    (hd : List Nat) (hnd : hd.Nodup) (infv : Option V) (default : V) (lo hi : Nat) (hlo : IsSmallest hd lo) (hhi : IsLargest hd hi)
    (X : List S) (hX : X ≠ []) (horder : ∀ i, i < X.length → i ∈ order) :
    ∃ R, fitTransform .flagser (flagserDiagram engine) hd infv default zero lowest reduced garbage order X = .ok R ∧ R.length = X.length ∧
      ∀ (i : Nat) x D', X[i]? = some x → R[i]? = some D' → (∀ p ∈ D', p.q ∈ hd) ∧ ∀ q ∈ hd, ∃ pads : List (Pt V Nat),
        pointsIn D' q = ((reportedBars (infv.getD default) zero lowest
          (if q = 0 ∧ reduced = true then ((engine lo hi x).getD (q - lo) []).dropLast else (engine lo hi x).getD (q - lo) [])).map fun v => ⟨v.1, v.2, q⟩) ++ pads ∧
        ∀ p ∈ pads, p.b = p.d := by
  set f : Fitted V := ⟨hd.insertionSort (· ≤ ·), lo, hi, infv.getD default⟩ with hf
  have key : ∀ x q, q ∈ hd → ∃ l, flagserDiagram engine f x = .byDim l ∧ l[q]? = some ((engine lo hi x).getD (q - lo) []) := by
    intro x q hq
    have h1 := hlo.2 q hq
    have h2 := hhi.2 q hq
    have hg : ∀ m : Nat, lo + (engine lo hi x).length + m = max (lo + (engine lo hi x).length) (hi + 1) →
        (List.replicate lo [] ++ engine lo hi x ++ List.replicate m ([] : List (Raw V × Raw V)))[q]? = some ((engine lo hi x).getD (q - lo) []) := by
      intro m hm
      rw [List.append_assoc, List.getElem?_append_right (by simpa using h1), List.length_replicate]
      by_cases hc : q - lo < (engine lo hi x).length
      · rw [List.getElem?_append_left hc, List.getD_eq_getElem?_getD, List.getElem?_eq_getElem hc, Option.getD_some]
      · rw [List.getElem?_append_right (by omega), List.getElem?_replicate, if_pos (by omega), List.getD_eq_getElem?_getD, List.getElem?_eq_none (by omega), Option.getD_none]
    refine ⟨_, rfl, ?_⟩
    split
    · next hm =>
      apply hg
      simp only [hf, List.length_append, List.length_replicate] at hm ⊢
      omega
    · next hm =>
      have := hg 0 (by simp only [hf, List.length_append, List.length_replicate] at hm; omega)
      rw [List.replicate_zero, List.append_nil] at this
      exact this
  obtain ⟨R, hR, hl, h⟩ := transform_spec .flagser (flagserDiagram engine) zero lowest reduced garbage order hd hnd infv default lo hi hlo hhi X hX horder f hf (by
    intro x _
    show ∀ q ∈ hd, q < _
    intro q hq
    obtain ⟨l, hl, hlq⟩ := key x q hq
    have hl' := hl
    unfold flagserDiagram at hl'
    simp only [RawDiagram.byDim.injEq] at hl'
    rw [hl']
    exact (List.getElem?_eq_some_iff.1 hlq).1)
  refine ⟨R, hR, hl, ?_⟩
  intro i x D' hx hD'
  obtain ⟨h1, h2⟩ := h i x D' hx hD'
  refine ⟨h1, fun q hq => ?_⟩
  obtain ⟨pads, h3, h4⟩ := h2 q hq
  refine ⟨pads, ?_, h4⟩
  obtain ⟨l, hl, hlq⟩ := key x q hq
  rw [h3, expectedBars_eq, hl]
  simp only [withoutOne, rawBars, List.getD_eq_getElem?_getD, hlq, Option.getD_some]

/-- Non-vacuity of C80: dimensions 3 and 1 requested, the engine returns a single diagram (of dimension 1). -/
example : fitTransform .flagser (flagserDiagram (fun _ _ (_ : Unit) => [[((.num 1 : Raw ℚ), .posinf), (.num 2, .num 3)]])) [3, 1] none 7 0 (-100) true (fun _ _ => ⟨0, 0, 0⟩)
    [0] [()] = .ok [[⟨1, 7, 1⟩, ⟨2, 3, 1⟩, ⟨0, 0, 3⟩]] := by decide +kernel

/-! ### C88: dimensions, batches and samples -/

/-- **C88.** `VietorisRipsPersistence`, `WeightedRipsPersistence` and `WeakAlphaPersistence` ask the engine for all dimensions up to the largest requested one. If it returns a list of bars for each of
them, the output has in each requested dimension the bars of this dimension (without the last one in dimension 0 if homology is reduced), followed by points on the diagonal. -/
theorem C88_ripser (engine : Nat → S → List (List (Raw V × Raw V))) (zero lowest : V) (reduced : Bool) (garbage : Nat → Nat → Pt V Nat) (order : List Nat)
    (hd : List Nat) (hnd : hd.Nodup) (infv : Option V) (default : V) (hi : Nat) (hhi : IsLargest hd hi) (X : List S) (hX : X ≠ []) (horder : ∀ i, i < X.length → i ∈ order)
    (hengine : ∀ x ∈ X, (engine hi x).length = hi + 1) :
    ∃ R, fitTransform .ripser (ripserDiagram engine) hd infv default zero lowest reduced garbage order X = .ok R ∧ R.length = X.length ∧
      ∀ (i : Nat) x D', X[i]? = some x → R[i]? = some D' → (∀ p ∈ D', p.q ∈ hd) ∧ ∀ q ∈ hd, ∃ bars, (engine hi x)[q]? = some bars ∧ ∃ pads : List (Pt V Nat),
        pointsIn D' q = ((reportedBars (infv.getD default) zero lowest (if q = 0 ∧ reduced = true then bars.dropLast else bars)).map fun v => ⟨v.1, v.2, q⟩) ++ pads ∧
        ∀ p ∈ pads, p.b = p.d := by
  obtain ⟨⟨lo, hlo⟩, -⟩ := exists_extremes hd (List.ne_nil_of_mem hhi.1)
  obtain ⟨R, hR, hl, h⟩ := transform_spec .ripser (ripserDiagram engine) zero lowest reduced garbage order hd hnd infv default lo hi hlo hhi X hX horder _ rfl (by
    intro x hx q hq
    show q < (engine hi x).length
    rw [hengine x hx]
    exact Nat.lt_succ_of_le (hhi.2 q hq))
  refine ⟨R, hR, hl, fun i x D' hx hD' => ⟨(h i x D' hx hD').1, fun q hq => ?_⟩⟩
  obtain ⟨pads, h3, h4⟩ := (h i x D' hx hD').2 q hq
  have hlt : q < (engine hi x).length := by
    rw [hengine x (List.mem_of_getElem? hx)]
    exact Nat.lt_succ_of_le (hhi.2 q hq)
  refine ⟨(engine hi x)[q], List.getElem?_eq_getElem hlt, pads, ?_, h4⟩
  rw [h3, expectedBars_eq]
  simp only [ripserDiagram, withoutOne, rawBars, List.getD_eq_getElem?_getD, List.getElem?_eq_getElem hlt, Option.getD_some]

/-- **C88.** `SparseRipsPersistence` and `EuclideanCechPersistence` build a complex of one dimension more than the largest requested one, and report of its pairs those of the requested dimensions
(without the first one in dimension 0 if homology is reduced), in the order of the engine. -/
theorem C88_gudhi (engine : Nat → S → List (Nat × (Raw V × Raw V))) (zero lowest : V) (reduced : Bool) (garbage : Nat → Nat → Pt V Nat) (order : List Nat)
    (hd : List Nat) (hnd : hd.Nodup) (infv : Option V) (default : V) (hi : Nat) (hhi : IsLargest hd hi) (X : List S) (hX : X ≠ []) (horder : ∀ i, i < X.length → i ∈ order) :
    ∃ R, fitTransform .gudhi (gudhiDiagram engine) hd infv default zero lowest reduced garbage order X = .ok R ∧ R.length = X.length ∧
      ∀ (i : Nat) x D', X[i]? = some x → R[i]? = some D' → (∀ p ∈ D', p.q ∈ hd) ∧ ∀ q ∈ hd, ∃ pads : List (Pt V Nat),
        let bars := (engine (hi + 1) x).filterMap fun p => if p.1 = q then some p.2 else none
        pointsIn D' q = ((reportedBars (infv.getD default) zero lowest (if q = 0 ∧ reduced = true then bars.tail else bars)).map fun v => ⟨v.1, v.2, q⟩) ++ pads ∧
        ∀ p ∈ pads, p.b = p.d := by
  obtain ⟨⟨lo, hlo⟩, -⟩ := exists_extremes hd (List.ne_nil_of_mem hhi.1)
  obtain ⟨R, hR, hl, h⟩ := transform_spec .gudhi (gudhiDiagram engine) zero lowest reduced garbage order hd hnd infv default lo hi hlo hhi X hX horder _ rfl (fun _ _ => trivial)
  refine ⟨R, hR, hl, fun i x D' hx hD' => ⟨(h i x D' hx hD').1, fun q hq => ?_⟩⟩
  obtain ⟨pads, h3, h4⟩ := (h i x D' hx hD').2 q hq
  refine ⟨pads, ?_, h4⟩
  rw [h3, expectedBars_eq]
  rfl

/-- Non-vacuity of C88: bars of dimensions 0 to 2 from the engines, dimensions 2 and 0 requested. -/
example : IsLargest [2, 0] 2 ∧ fitTransform .ripser (ripserDiagram (fun d (_ : Unit) => (List.range (d + 1)).map fun (i : Nat) => [((.num i : Raw ℚ), .num (i + 1)), (.num i, .posinf)])) [2, 0] none 7 0 (-100)
      true (fun _ _ => ⟨0, 0, 0⟩) [0] [()] = .ok [[⟨0, 1, 0⟩, ⟨2, 3, 2⟩, ⟨2, 7, 2⟩]] ∧
    fitTransform .gudhi (gudhiDiagram (fun d (_ : Unit) => (List.range (d + 1)).map fun (i : Nat) => (i, ((.num i : Raw ℚ), .num (i + 1))))) [2, 0] none 7 0 (-100)
      false (fun _ _ => ⟨0, 0, 0⟩) [0] [()] = .ok [[⟨0, 1, 0⟩, ⟨2, 3, 2⟩]] :=
  ⟨by simp [IsLargest], by decide +kernel, by decide +kernel⟩

/-- **C88.** The order in which homology dimensions are listed is irrelevant. -/
theorem C88_order_of_dimensions (fmt : Format) (diagram : Fitted V → S → RawDiagram V) (zero lowest : V) (reduced : Bool) (garbage : Nat → Nat → Pt V Nat) (order : List Nat)
    (hd hd' : List Nat) (hp : hd.Perm hd') (infv : Option V) (default : V) (X : List S) :
    fitTransform fmt diagram hd infv default zero lowest reduced garbage order X = fitTransform fmt diagram hd' infv default zero lowest reduced garbage order X := by
  have : hd.insertionSort (· ≤ ·) = hd'.insertionSort (· ≤ ·) := by
    apply List.Perm.eq_of_pairwise (le := fun a b => a ≤ b)
    · intro a b _ _ h1 h2; exact le_antisymm h1 h2
    · exact List.pairwise_insertionSort _ _
    · exact List.pairwise_insertionSort _ _
    · exact (List.perm_insertionSort _ _).trans (hp.trans (List.perm_insertionSort _ _).symm)
  unfold fitTransform fit
  simp only [this]

theorem fitTransform_form (fmt : Format) (diagram : Fitted V → S → RawDiagram V) (zero lowest : V) (reduced : Bool) (garbage : Nat → Nat → Pt V Nat) (order : List Nat)
    (hd : List Nat) (infv : Option V) (default : V) (X : List S) (hX : X ≠ []) (horder : ∀ i, i < X.length → i ∈ order) (f : Fitted V) (hf : fit hd infv default = .ok f)
    (hw : ∀ x ∈ X, WellFormed fmt f.dims (diagram f x)) :
    fitTransform fmt diagram hd infv default zero lowest reduced garbage order X = .ok (X.map fun x => f.dims.flatMap fun q =>
      blockOf q (barWidth f.inf zero lowest reduced (X.map (diagram f)) q) (barPad f.inf zero lowest reduced (X.map (diagram f)) q)
        (expectedBars f.inf zero lowest reduced (diagram f x) q)) := by
  unfold fitTransform
  rw [hf, ok_bind, transform_eq _ _ _ _ _ _ _ _ _ horder, postprocess_form _ _ _ _ _ _ _ _ (by simpa using hX), List.map_map]
  · rfl
  · intro D hD
    obtain ⟨x, hx, rfl⟩ := List.mem_map.1 hD
    exact hw x hx

theorem foldl_max_perm (l l' : List Nat) (h : l.Perm l') (a : Nat) : l.foldl max a = l'.foldl max a := by
  apply h.foldl_eq'
  intro x _ y _ z
  exact max_right_comm z x y

theorem padValue_perm (zero : V) (l l' : List V) (h : l.Perm l') : padValue zero l = padValue zero l' := by
  have char : ∀ (t : List V) (b : V), t.foldl min b ∈ b :: t ∧ ∀ x ∈ b :: t, t.foldl min b ≤ x := by
    intro t
    induction t with
    | nil => intro b; simp
    | cons a t ih =>
      intro b
      obtain ⟨h1, h2⟩ := ih (min b a)
      rw [List.foldl_cons]
      have hle : t.foldl min (min b a) ≤ min b a := h2 _ (by simp)
      refine ⟨?_, ?_⟩
      · rcases List.mem_cons.1 h1 with h | h
        · rw [h]
          rcases min_choice b a with h | h <;> rw [h] <;> simp
        · simp [h]
      · intro x hx
        rcases List.mem_cons.1 hx with rfl | hx
        · exact hle.trans (min_le_left _ _)
        · rcases List.mem_cons.1 hx with rfl | hx
          · exact hle.trans (min_le_right _ _)
          · exact h2 x (by simp [hx])
  cases l with
  | nil => rw [List.nil_perm.1 h]
  | cons b t =>
    cases l' with
    | nil => exact absurd h.symm (by simp)
    | cons b' t' =>
      obtain ⟨h1, h2⟩ := char t b
      obtain ⟨h3, h4⟩ := char t' b'
      exact le_antisymm (h2 _ (h.mem_iff.2 h3)) (h4 _ (h.mem_iff.1 h1))

/-- **C88.** Reordering the samples of a batch reorders the rows of the output in the same way, whatever the number of parallel tasks and the order in which they are executed. -/
theorem C88_order_of_samples (fmt : Format) (diagram : Fitted V → S → RawDiagram V) (zero lowest : V) (reduced : Bool) (garbage : Nat → Nat → Pt V Nat)
    (hd : List Nat) (infv : Option V) (default : V) (f : Fitted V) (hf : fit hd infv default = .ok f) (X : List S) (hX : X ≠ []) (hw : ∀ x ∈ X, WellFormed fmt f.dims (diagram f x)) :
    ∃ row : S → List (Pt V Nat), ∀ X', X'.Perm X → ∀ order : List Nat, (∀ i, i < X'.length → i ∈ order) →
      fitTransform fmt diagram hd infv default zero lowest reduced garbage order X' = .ok (X'.map row) := by
  refine ⟨fun x => f.dims.flatMap fun q =>
      blockOf q (barWidth f.inf zero lowest reduced (X.map (diagram f)) q) (barPad f.inf zero lowest reduced (X.map (diagram f)) q)
        (expectedBars f.inf zero lowest reduced (diagram f x) q), ?_⟩
  intro X' hp order horder
  rw [fitTransform_form fmt diagram zero lowest reduced garbage order hd infv default X' (by rintro rfl; exact hX (List.nil_perm.1 hp)) horder f hf
    (fun x hx => hw x (hp.mem_iff.1 hx))]
  have h1 : ∀ q, barWidth f.inf zero lowest reduced (X'.map (diagram f)) q = barWidth f.inf zero lowest reduced (X.map (diagram f)) q :=
    fun q => foldl_max_perm _ _ ((hp.map _).map _) 1
  have h2 : ∀ q, barPad f.inf zero lowest reduced (X'.map (diagram f)) q = barPad f.inf zero lowest reduced (X.map (diagram f)) q :=
    fun q => padValue_perm _ _ _ ((hp.map _).flatMap_right _)
  simp only [h1, h2]

theorem offDiagonal_block (dim width : Nat) (pad : V) (sub : List (V × V)) (h : ∀ v ∈ sub, v.1 < v.2) :
    offDiagonal (blockOf dim width pad sub) = sub.map fun v => ⟨v.1, v.2, dim⟩ := by
  unfold offDiagonal blockOf
  rw [List.filter_append]
  have h1 : (sub.map fun v => (⟨v.1, v.2, dim⟩ : Pt V Nat)).filter (fun p => decide (p.b ≠ p.d)) = sub.map fun v => ⟨v.1, v.2, dim⟩ := by
    rw [List.filter_eq_self]
    intro p hp
    obtain ⟨v, hv, rfl⟩ := List.mem_map.1 hp
    simpa using (h v hv).ne
  have h2 : (List.replicate (width - sub.length) (⟨pad, pad, dim⟩ : Pt V Nat)).filter (fun p => decide (p.b ≠ p.d)) = [] := by
    rw [List.filter_eq_nil_iff]
    intro p hp
    rw [List.eq_of_mem_replicate hp]
    simp
  rw [h1, h2, List.append_nil]

/-- **C88.** The features of a sample do not depend on the other samples of the batch: its diagram in a batch and its diagram when it is transformed alone have the same points off the
diagonal, in the same order. -/
theorem C88_batch (fmt : Format) (diagram : Fitted V → S → RawDiagram V) (zero lowest : V) (reduced : Bool) (garbage : Nat → Nat → Pt V Nat) (order : List Nat)
    (hd : List Nat) (infv : Option V) (default : V) (f : Fitted V) (hf : fit hd infv default = .ok f) (X : List S) (hw : ∀ x ∈ X, WellFormed fmt f.dims (diagram f x))
    (horder : ∀ i, i < X.length → i ∈ order) (i : Nat) (x : S) (hx : X[i]? = some x) :
    ∃ R D' D₁, fitTransform fmt diagram hd infv default zero lowest reduced garbage order X = .ok R ∧ R[i]? = some D' ∧
      fitTransform fmt diagram hd infv default zero lowest reduced garbage [0] [x] = .ok [D₁] ∧ offDiagonal D' = offDiagonal D₁ := by
  have hmem := List.mem_of_getElem? hx
  have hX : X ≠ [] := by rintro rfl; cases hmem
  refine ⟨_, _, _, fitTransform_form fmt diagram zero lowest reduced garbage order hd infv default X hX horder f hf hw, by rw [List.getElem?_map, hx]; rfl,
    fitTransform_form fmt diagram zero lowest reduced garbage [0] hd infv default [x] (by simp) (by simp) f hf (by intro y hy; rw [List.mem_singleton.1 hy]; exact hw x hmem), ?_⟩
  unfold offDiagonal
  rw [List.filter_flatMap, List.filter_flatMap]
  congr 1
  funext q
  have hlt : ∀ v ∈ expectedBars f.inf zero lowest reduced (diagram f x) q, v.1 < v.2 := by
    intro v hv
    rw [expectedBars_eq] at hv
    simpa using (List.mem_filter.1 hv).2
  exact (offDiagonal_block q _ _ _ hlt).trans (offDiagonal_block q _ _ _ hlt).symm

/-- Non-vacuity of C88: two samples with different numbers of features. -/
example : fitTransform .ripser (ripserDiagram (fun _ n => [[((.num 0 : Raw ℚ), .posinf)], (List.range n).map fun (i : Nat) => (.num i, .num (i + 2))])) [0, 1] none 7 0 (-100) false
    (fun _ _ => ⟨0, 0, 0⟩) [1, 0] [2, 1] = .ok [[⟨0, 7, 0⟩, ⟨0, 2, 1⟩, ⟨1, 3, 1⟩], [⟨0, 7, 0⟩, ⟨0, 2, 1⟩, ⟨0, 0, 1⟩]] := by decide +kernel

/-- **C88, false for repeated dimensions.** A dimension listed twice is not ignored: all its features are reported twice. -/
theorem C88_refuted_repeated_dimension :
    fitTransform .ripser (ripserDiagram (fun _ (_ : Unit) => [[], [((.num 1 : Raw ℚ), .num 2)]])) [1, 1] none 7 0 (-100) true (fun _ _ => ⟨0, 0, 0⟩) [0] [()] =
      .ok [[⟨1, 2, 1⟩, ⟨1, 2, 1⟩]] := by decide +kernel

/-- **C88.** An empty list of homology dimensions passes the validation of parameters and fails with an `IndexError`. -/
theorem C88_no_dimensions (fmt : Format) (diagram : Fitted V → S → RawDiagram V) (zero lowest : V) (reduced : Bool) (garbage : Nat → Nat → Pt V Nat) (order : List Nat)
    (infv : Option V) (default : V) (X : List S) :
    checkParam homologyDimensionsRef (.list []) = .ok () ∧ fitTransform fmt diagram [] infv default zero lowest reduced garbage order X = .error .indexError := ⟨rfl, rfl⟩

/-! ### C91: reduced homology -/

theorem reportedBars_append (inf zero lowest : V) (l l' : List (Raw V × Raw V)) :
    reportedBars inf zero lowest (l ++ l') = reportedBars inf zero lowest l ++ reportedBars inf zero lowest l' := by
  simp [reportedBars]

theorem perm_discarded (inf zero lowest : V) (D : RawDiagram V) (b : Raw V × Raw V) (h : discarded D = some b) :
    (expectedBars inf zero lowest false D 0).Perm (reportedBars inf zero lowest [b] ++ expectedBars inf zero lowest true D 0) := by
  rw [expectedBars_eq, expectedBars_eq, if_neg (by simp), if_pos ⟨rfl, rfl⟩]
  cases D with
  | byDim l =>
    have h' : (rawBars (.byDim l) 0).getLast? = some b := h
    have : rawBars (.byDim l) 0 = (rawBars (.byDim l) 0).dropLast ++ [b] := (List.dropLast_append_getLast? b h').symm
    show (reportedBars inf zero lowest (rawBars (.byDim l) 0)).Perm (_ ++ reportedBars inf zero lowest (rawBars (.byDim l) 0).dropLast)
    conv_lhs => rw [this]
    rw [reportedBars_append]
    exact List.perm_append_comm
  | gudhi l =>
    have h' : (rawBars (.gudhi l) 0).head? = some b := h
    show (reportedBars inf zero lowest (rawBars (.gudhi l) 0)).Perm (_ ++ reportedBars inf zero lowest (rawBars (.gudhi l) 0).tail)
    have : rawBars (.gudhi l) 0 = b :: (rawBars (.gudhi l) 0).tail := by
      cases hr : rawBars (.gudhi l) 0 with
      | nil => rw [hr] at h'; cases h'
      | cons a t => rw [hr] at h'; cases h'; rfl
    conv_lhs => rw [this]
    rw [← reportedBars_append]
    rfl

/-- **C91 (partial).** If the engine lists an earliest born essential class of dimension 0 where the code expects it (last for ripser and flagser, first for GUDHI), then reduced homology
leaves out exactly that class: the features without reduction are the features with reduction and one more, which never dies and is born no later than any other feature of dimension 0
that never dies. Missing: the claim when the engine lists the essential classes in another order. -/
theorem C91_reduced_partial (fmt : Format) (diagram : Fitted V → S → RawDiagram V) (zero lowest : V) (garbage : Nat → Nat → Pt V Nat) (order : List Nat)
    (hd : List Nat) (hnd : hd.Nodup) (h0 : 0 ∈ hd) (infv : Option V) (default : V) (f : Fitted V) (hf : fit hd infv default = .ok f) (X : List S)
    (hw : ∀ x ∈ X, WellFormed fmt f.dims (diagram f x)) (horder : ∀ i, i < X.length → i ∈ order)
    (hb : ∀ x ∈ X, ∃ b, discarded (diagram f x) = some b ∧ IsEarliestEssential (rawBars (diagram f x) 0) b) (i : Nat) (x : S) (hx : X[i]? = some x) :
    ∃ R R' D D', fitTransform fmt diagram hd infv default zero lowest true garbage order X = .ok R ∧ R[i]? = some D ∧
      fitTransform fmt diagram hd infv default zero lowest false garbage order X = .ok R' ∧ R'[i]? = some D' ∧
      ∃ b : V, (offDiagonal D').Perm ((if b < f.inf then [⟨b, f.inf, 0⟩] else []) ++ offDiagonal D) ∧
        ∀ c ∈ rawBars (diagram f x) 0, Essential c → ∃ y, c.1 = .num y ∧ b ≤ y := by
  have hmem := List.mem_of_getElem? hx
  have hX : X ≠ [] := by rintro rfl; cases hmem
  refine ⟨_, _, _, _, fitTransform_form fmt diagram zero lowest true garbage order hd infv default X hX horder f hf hw, by rw [List.getElem?_map, hx]; rfl,
    fitTransform_form fmt diagram zero lowest false garbage order hd infv default X hX horder f hf hw, by rw [List.getElem?_map, hx]; rfl, ?_⟩
  obtain ⟨bar, hbar, b, rfl, hmin⟩ := hb x hmem
  refine ⟨b, ?_, hmin⟩
  have hlt : ∀ reduced q, ∀ v ∈ expectedBars f.inf zero lowest reduced (diagram f x) q, v.1 < v.2 := by
    intro reduced q v hv
    rw [expectedBars_eq] at hv
    simpa using (List.mem_filter.1 hv).2
  have hoff : ∀ (reduced : Bool) (W P : Nat → _), offDiagonal (f.dims.flatMap fun q => blockOf q (W q) (P q) (expectedBars f.inf zero lowest reduced (diagram f x) q)) =
      f.dims.flatMap fun q => (expectedBars f.inf zero lowest reduced (diagram f x) q).map fun v => ⟨v.1, v.2, q⟩ := by
    intro reduced W P
    unfold offDiagonal
    rw [List.filter_flatMap]
    congr 1
    funext q
    exact offDiagonal_block q _ _ _ (hlt reduced q)
  rw [hoff true, hoff false]
  have hperm : f.dims.Perm hd := by
    unfold fit at hf
    simp only at hf
    split at hf
    · cases hf; exact List.perm_insertionSort _ _
    · cases hf
  have hfd : f.dims.Nodup := hperm.nodup_iff.2 hnd
  have hf0 : 0 ∈ f.dims := hperm.mem_iff.2 h0
  have hrest : ∀ q, q ≠ 0 → expectedBars f.inf zero lowest true (diagram f x) q = expectedBars f.inf zero lowest false (diagram f x) q := by
    intro q hq
    rw [expectedBars_eq, expectedBars_eq, if_neg (by tauto), if_neg (by tauto)]
  have h0perm := perm_discarded f.inf zero lowest (diagram f x) _ hbar
  have hone : (reportedBars f.inf zero lowest [((.num b : Raw V), .posinf)]).map (fun v => (⟨v.1, v.2, 0⟩ : Pt V Nat)) = if b < f.inf then [⟨b, f.inf, 0⟩] else [] := by
    unfold reportedBars
    by_cases h : b < f.inf <;> simp [replaceRaw, h]
  rw [← hone]
  obtain ⟨s, t, hst⟩ := List.append_of_mem hf0
  rw [hst] at hfd ⊢
  have hs : ∀ q ∈ s, q ≠ 0 := by
    rintro q hq rfl
    exact (List.nodup_append.1 hfd).2.2 0 hq 0 (by simp) rfl
  have ht : ∀ q ∈ t, q ≠ 0 := by
    rintro q hq rfl
    exact (List.nodup_cons.1 (List.nodup_append.1 hfd).2.1).1 hq
  rw [List.flatMap_append, List.flatMap_cons, List.flatMap_append, List.flatMap_cons]
  have e : ∀ u : List Nat, (∀ q ∈ u, q ≠ 0) → (u.flatMap fun q => (expectedBars f.inf zero lowest true (diagram f x) q).map fun v => (⟨v.1, v.2, q⟩ : Pt V Nat)) =
      u.flatMap fun q => (expectedBars f.inf zero lowest false (diagram f x) q).map fun v => ⟨v.1, v.2, q⟩ := by
    intro u hu
    apply List.flatMap_congr
    intro q hq
    rw [hrest q (hu q hq)]
  rw [e s hs, e t ht]
  refine (List.Perm.append_left _ ((h0perm.map _).append_right _)).trans ?_
  rw [List.map_append, List.append_assoc]
  exact (List.perm_append_comm_assoc _ _ _)

/-- Non-vacuity of C91. -/
example : fitTransform .ripser (ripserDiagram (fun _ (_ : Unit) => [[((.num 0 : Raw ℚ), .num 2), (.num 1, .posinf), (.num 0, .posinf)]])) [0] none 7 0 (-100) true
      (fun _ _ => ⟨0, 0, 0⟩) [0] [()] = .ok [[⟨0, 2, 0⟩, ⟨1, 7, 0⟩]] ∧
    IsEarliestEssential [((.num 0 : Raw ℚ), .num 2), (.num 1, .posinf), (.num 0, .posinf)] (.num 0, .posinf) :=
  ⟨by decide +kernel, 0, rfl, by simp [Essential]⟩

/-- **C91, false in general.** The discarded bar is chosen by its place in the list of the engine, not by its birth: with two components born at 0 and 5 and listed in this order, the class
born at 5 is discarded and the one born first is kept. -/
theorem C91_refuted_place_in_list :
    fitTransform .flagser (flagserDiagram (fun _ _ (_ : Unit) => [[((.num 0 : Raw ℚ), .posinf), (.num 5, .posinf)]])) [0] none 7 0 (-100) true (fun _ _ => ⟨0, 0, 0⟩) [0] [()] =
      .ok [[⟨0, 7, 0⟩]] := by decide +kernel

end
/-! ### C89: parameters of weighted filtrations -/

theorem lookupKey_cons (p : String × PyVal) (t : List (String × PyVal)) (k : String) :
    lookupKey (p :: t) k = if p.1 = k then some p.2 else lookupKey t k := by
  unfold lookupKey
  by_cases h : p.1 = k <;> simp [h]

theorem lookupKey_append (s t : List (String × PyVal)) (k : String) : lookupKey (s ++ t) k = (lookupKey s k).or (lookupKey t k) := by
  induction s with
  | nil => simp [lookupKey]
  | cons p s ih =>
    rw [List.cons_append, lookupKey_cons, lookupKey_cons, ih]
    by_cases h : p.1 = k <;> simp [h]

/-- One assignment `d[k] = v`. -/
def assign (acc : List (String × PyVal)) (p : String × PyVal) : List (String × PyVal) :=
  if acc.any (fun q => decide (q.1 = p.1)) then acc.map (fun q => if q.1 = p.1 then (q.1, p.2) else q) else acc ++ [p]

theorem not_any_key (d : List (String × PyVal)) (p : String × PyVal) (h : ¬ d.any (fun q => decide (q.1 = p.1)) = true) : ∀ q ∈ d, q.1 ≠ p.1 := by
  intro q hq he
  exact h (List.any_eq_true.2 ⟨q, hq, by simpa using he⟩)

theorem lookupKey_assign (d : List (String × PyVal)) (p : String × PyVal) (k : String) :
    lookupKey (assign d p) k = if p.1 = k then some p.2 else lookupKey d k := by
  unfold assign
  by_cases h : d.any (fun q => decide (q.1 = p.1)) = true
  · rw [if_pos h]
    induction d with
    | nil => cases h
    | cons a t ih =>
      rw [List.map_cons, lookupKey_cons, lookupKey_cons]
      by_cases ha : a.1 = p.1
      · simp only [ha, if_true]
        by_cases hk : p.1 = k
        · simp [hk]
        · simp only [hk, if_false]
          by_cases ht : t.any (fun q => decide (q.1 = p.1)) = true
          · rw [ih ht, if_neg hk]
          · congr 1
            have : ∀ q ∈ t, q.1 ≠ p.1 := not_any_key t p ht
            conv_rhs => rw [← List.map_id t]
            apply List.map_congr_left
            intro q hq
            rw [if_neg (this q hq)]; rfl
      · simp only [ha, if_false]
        have ht : t.any (fun q => decide (q.1 = p.1)) = true := by simpa [ha] using h
        rw [ih ht]
        by_cases hk : p.1 = k
        · simp only [hk, if_true, ite_eq_right_iff]
          intro h; exact absurd (h.trans hk.symm) ha
        · simp [hk]
  · rw [if_neg h, lookupKey_append]
    have hno : ∀ q ∈ d, q.1 ≠ p.1 := not_any_key d p h
    by_cases hk : p.1 = k
    · have : lookupKey d k = none := by
        unfold lookupKey
        rw [Option.map_eq_none_iff, List.find?_eq_none]
        intro q hq
        simpa using fun h => hno q hq (h.trans hk.symm)
      rw [this, if_pos hk, lookupKey_cons, if_pos hk]; rfl
    · rw [if_neg hk, lookupKey_cons, if_neg hk]
      simp [lookupKey]

theorem mem_assign (d : List (String × PyVal)) (p : String × PyVal) (x : String × PyVal) (h : x ∈ assign d p) : x = p ∨ (x ∈ d ∧ x.1 ≠ p.1) := by
  unfold assign at h
  split at h
  · obtain ⟨q, hq, rfl⟩ := List.mem_map.1 h
    by_cases hp : q.1 = p.1
    · left; rw [if_pos hp]; exact Prod.ext hp rfl
    · right; rw [if_neg hp]; exact ⟨hq, hp⟩
  · next hn =>
    rcases List.mem_append.1 h with h | h
    · refine .inr ⟨h, ?_⟩
      have : ∀ q ∈ d, q.1 ≠ p.1 := not_any_key d p hn
      exact this x h
    · exact .inl (List.mem_singleton.1 h)

theorem mem_assign_self (d : List (String × PyVal)) (p : String × PyVal) : p ∈ assign d p := by
  unfold assign
  split
  · next h =>
    obtain ⟨q, hq, he⟩ := List.any_eq_true.1 h
    have he : q.1 = p.1 := by simpa using he
    exact List.mem_map.2 ⟨q, hq, by rw [if_pos he]; exact Prod.ext he rfl⟩
  · simp

theorem mem_assign_old (d : List (String × PyVal)) (p x : String × PyVal) (h : x ∈ d) (hx : x.1 ≠ p.1) : x ∈ assign d p := by
  unfold assign
  split
  · exact List.mem_map.2 ⟨x, h, by rw [if_neg hx]⟩
  · simp [h]

theorem dictUpdate_eq (d e : List (String × PyVal)) : dictUpdate d e = e.foldl assign d := rfl

theorem lookupKey_dictUpdate (d e : List (String × PyVal)) (he : (e.map Prod.fst).Nodup) (k : String) :
    lookupKey (dictUpdate d e) k = (lookupKey e k).or (lookupKey d k) := by
  rw [dictUpdate_eq]
  induction e generalizing d with
  | nil => simp [lookupKey]
  | cons p t ih =>
    rw [List.map_cons, List.nodup_cons] at he
    rw [List.foldl_cons, ih _ he.2, lookupKey_assign, lookupKey_cons]
    by_cases h : p.1 = k
    · have : lookupKey t k = none := by
        unfold lookupKey
        rw [Option.map_eq_none_iff, List.find?_eq_none]
        intro q hq
        have : q.1 ≠ k := by
          rintro hk
          exact he.1 (List.mem_map.2 ⟨q, hq, hk.trans h.symm⟩)
        simpa using this
      simp [h, this]
    · simp [h]

theorem mem_dictUpdate (d e : List (String × PyVal)) (x : String × PyVal) (h : x ∈ dictUpdate d e) : x ∈ e ∨ x ∈ d := by
  rw [dictUpdate_eq] at h
  induction e generalizing d with
  | nil => exact .inr h
  | cons p t ih =>
    rcases ih _ h with h | h
    · exact .inl (by simp [h])
    · rcases mem_assign d p x h with h | h
      · exact .inl (by simp [h])
      · exact .inr h.1

theorem mem_dictUpdate_new (d e : List (String × PyVal)) (he : (e.map Prod.fst).Nodup) (x : String × PyVal) (h : x ∈ e) : x ∈ dictUpdate d e := by
  rw [dictUpdate_eq]
  have keep : ∀ (t : List (String × PyVal)) (d : List (String × PyVal)), x ∈ d → (∀ q ∈ t, q.1 ≠ x.1) → x ∈ t.foldl assign d := by
    intro t
    induction t with
    | nil => intro d hd _; exact hd
    | cons p t ih =>
      intro d hd hq
      exact ih _ (mem_assign_old d p x hd (fun h => hq p (by simp) h.symm)) (fun q hq' => hq q (by simp [hq']))
  induction e generalizing d with
  | nil => cases h
  | cons p t ih =>
    rw [List.map_cons, List.nodup_cons] at he
    rcases List.mem_cons.1 h with rfl | h
    · exact keep t _ (mem_assign_self d x) (fun q hq hk => he.1 (List.mem_map.2 ⟨q, hq, hk⟩))
    · exact ih _ he.2 h

theorem isOneTwoInf_iff (v : PyVal) : (isinstance v .real = true ∧ isOneTwoInf v = true) ↔ OneTwoInf v := by
  cases v <;> simp [isinstance, isOneTwoInf, OneTwoInf]

theorem positiveOrInf_iff (v : PyVal) : (isinstance v .real = true ∧ positiveOrInf v = true) ↔ PositiveOrInf v := by
  cases v <;> simp [isinstance, positiveOrInf, PositiveOrInf]

theorem atLeastOne_iff (v : PyVal) : (isinstance v .int = true ∧ atLeastOne v = true) ↔ PositiveInt v := by
  cases v <;> simp [isinstance, atLeastOne, PositiveInt]

theorem single_real (p : PyVal → Bool) (v : PyVal) (t : PyType) (ht : t = .real ∨ t = .int) :
    checkParam (.mk (some (.one t)) (some p) none .none) v = .ok () ↔ isinstance v t = true ∧ p v = true := by
  have key : isinstance v t = true → isContainer v = false := by
    rcases ht with rfl | rfl <;> cases v <;> simp [isinstance, isContainer, typesTuple]
  have hd : declaredContainer (some (.one t)) = false := by rcases ht with rfl | rfl <;> rfl
  have hn : isinstance v t = true → v ≠ .none := by
    rcases ht with rfl | rfl <;> rintro h rfl <;> simp [isinstance] at h
  unfold checkParam single
  simp only [typeOk, isinstanceSpec]
  by_cases h : isinstance v t = true
  · have ha : admCheck (some p) v = if p v then pure () else .error .valueError := by
      cases v <;> first | exact absurd rfl (hn h) | rfl
    by_cases hp : p v = true <;> simp [h, hd, key h, ha, hp, otherCheck, bind, Except.bind, pure, Except.pure]
  · have h' : isinstance v t = false := by simpa using h
    simp [h', bind, Except.bind]

theorem checkNamed_weights (dtm : Bool) (k : String) (v : PyVal) : checkNamed (ripsWeightRefs dtm) k v = .ok () ↔ AdmissibleWeight dtm k v := by
  unfold ripsWeightRefs AdmissibleWeight
  cases dtm
  · simp only [if_false, checkNamed, Bool.false_eq_true, false_and, or_false]
    by_cases h : "p" = k
    · subst h
      rw [if_pos rfl, single_real _ _ _ (.inl rfl), isOneTwoInf_iff]; simp
    · rw [if_neg h]
      simp [Ne.symm h]
  · simp only [if_true, checkNamed, true_and]
    by_cases h : "p" = k
    · subst h
      rw [if_pos rfl, single_real _ _ _ (.inl rfl), isOneTwoInf_iff]; simp
    · rw [if_neg h]
      by_cases h2 : "r" = k
      · subst h2
        rw [if_pos rfl, single_real _ _ _ (.inl rfl), positiveOrInf_iff]; simp
      · rw [if_neg h2]
        by_cases h3 : "n_neighbors" = k
        · subst h3
          rw [if_pos rfl, single_real _ _ _ (.inr rfl), atLeastOne_iff]; simp
        · rw [if_neg h3]
          simp [Ne.symm h, Ne.symm h2, Ne.symm h3]

/-- The kind of weights. -/
def weightsOf (dtm : Bool) : Weights := if dtm then .str "DTM" else .fn

/-- The default dictionary. -/
def defaultsOf (dtm : Bool) : List (String × PyVal) := if dtm then [("p", .int 1), ("n_neighbors", .int 3), ("r", .int 2)] else [("p", .int 1)]

theorem effective_eq (dtm : Bool) (params : List (String × PyVal)) :
    effectiveWeightParams (weightsOf dtm) params = if params.isEmpty then .ok (defaultsOf dtm) else
      (validateParams (dictUpdate (defaultsOf dtm) params) (ripsWeightRefs dtm) [] >>= fun _ => pure (dictUpdate (defaultsOf dtm) params)) := by
  cases dtm <;> rfl

theorem lookup_defaults (dtm : Bool) (k : String) : lookupKey (defaultsOf dtm) k = defaultWeight dtm k := by
  unfold defaultWeight defaultsOf
  cases dtm
  · simp only [lookupKey_cons, if_false, Bool.false_eq_true, and_false]
    by_cases h : "p" = k
    · subst h; simp
    · rw [if_neg h, if_neg (Ne.symm h)]; rfl
  · simp only [lookupKey_cons, if_true, and_true]
    by_cases h : "p" = k
    · subst h; simp
    · rw [if_neg h, if_neg (Ne.symm h)]
      by_cases h2 : "n_neighbors" = k
      · subst h2; simp
      · rw [if_neg h2, if_neg (Ne.symm h2)]
        by_cases h3 : "r" = k
        · subst h3; simp
        · rw [if_neg h3, if_neg (Ne.symm h3)]; rfl

theorem validate_weights (dtm : Bool) (d : List (String × PyVal)) :
    validateParams d (ripsWeightRefs dtm) [] = .ok () ↔ ∀ x ∈ d, AdmissibleWeight dtm x.1 x.2 := by
  unfold validateParams
  rw [forM_ok_iff]
  simp only [List.contains_nil, Bool.not_false, List.filter_true, checkNamed_weights]

theorem defaults_admissible (dtm : Bool) : ∀ x ∈ defaultsOf dtm, AdmissibleWeight dtm x.1 x.2 := by
  cases dtm <;> simp [defaultsOf, AdmissibleWeight, OneTwoInf, PositiveInt, PositiveOrInf]

/-- **C89.** With admissible parameters, `fit` succeeds, and each parameter has the given value, or its documented default if it is not given (`dtm` says whether `weights` is "DTM" or a
function). -/
theorem C89_effective (dtm : Bool) (params : List (String × PyVal)) (hkeys : (params.map Prod.fst).Nodup) (h : ∀ x ∈ params, AdmissibleWeight dtm x.1 x.2) :
    ∃ eff, effectiveWeightParams (if dtm then .str "DTM" else .fn) params = .ok eff ∧ ∀ k, lookupKey eff k = (lookupKey params k).or (defaultWeight dtm k) := by
  show ∃ eff, effectiveWeightParams (weightsOf dtm) params = .ok eff ∧ _
  rw [effective_eq]
  by_cases hp : params.isEmpty = true
  · rw [if_pos hp]
    refine ⟨_, rfl, fun k => ?_⟩
    rw [List.isEmpty_iff.1 hp, lookup_defaults]
    simp [lookupKey]
  · rw [if_neg hp, (validate_weights dtm _).2]
    · exact ⟨_, rfl, fun k => by rw [lookupKey_dictUpdate _ _ hkeys, lookup_defaults]⟩
    · intro x hx
      rcases mem_dictUpdate _ _ _ hx with hx | hx
      · exact h x hx
      · exact defaults_admissible dtm x hx

/-- **C89.** An unknown name or a value that is not admissible makes `fit` fail. -/
theorem C89_rejected (dtm : Bool) (params : List (String × PyVal)) (hkeys : (params.map Prod.fst).Nodup) (x : String × PyVal) (hx : x ∈ params)
    (hbad : ¬ AdmissibleWeight dtm x.1 x.2) : ∃ e, effectiveWeightParams (if dtm then .str "DTM" else .fn) params = .error e := by
  show ∃ e, effectiveWeightParams (weightsOf dtm) params = .error e
  rw [effective_eq, if_neg (by intro h; rw [List.isEmpty_iff.1 h] at hx; cases hx)]
  cases hv : validateParams (dictUpdate (defaultsOf dtm) params) (ripsWeightRefs dtm) [] with
  | error e => exact ⟨e, rfl⟩
  | ok u => exact absurd ((validate_weights dtm _).1 hv x (mem_dictUpdate_new _ _ hkeys x hx)) hbad

/-- **C89.** A string other than "DTM" for `weights` is refused with a `ValueError`, whatever the other parameters. -/
theorem C89_other_string (s : String) (hs : s ≠ "DTM") (params : List (String × PyVal)) : effectiveWeightParams (.str s) params = .error .valueError := by
  unfold effectiveWeightParams
  simp only
  rw [if_pos hs]

/-- **C89.** A name that is not a parameter, such as "r" beside a function, fails with a `KeyError`. -/
theorem C89_unknown_name (v : PyVal) : effectiveWeightParams .fn [("r", v)] = .error .keyError := by
  cases v <;> rfl

/-- Non-vacuity of C89. -/
example : ∀ x ∈ [("r", PyVal.float (1 / 2)), ("p", .floatInf)], AdmissibleWeight true x.1 x.2 := by
  simp [AdmissibleWeight, OneTwoInf, PositiveOrInf]

/-! ### C90: images -/

section
variable {V : Type} [LinearOrder V]

theorem fIndices_length (s : List Nat) : (fIndices s).length = s.prod := by
  induction s with
  | nil => rfl
  | cons n t ih =>
    unfold fIndices
    rw [List.length_flatMap]
    simp [ih, Nat.mul_comm]

theorem getElem?_flatMap_range {α β : Type} (l : List α) (n : Nat) (g : α → Nat → β) (k i : Nat) (hi : i < n) :
    (l.flatMap fun a => (List.range n).map (g a))[i + n * k]? = (l[k]?).map fun a => g a i := by
  induction l generalizing k with
  | nil => simp
  | cons a t ih =>
    rw [List.flatMap_cons]
    cases k with
    | zero =>
      rw [Nat.mul_zero, Nat.add_zero, List.getElem?_append_left (by simpa using hi)]
      simp [hi]
    | succ k =>
      rw [List.getElem?_append_right (by simp [Nat.mul_succ]; omega), List.length_map, List.length_range, List.getElem?_cons_succ, ← ih k]
      congr 1
      rw [Nat.mul_succ]; omega

theorem fIndices_getElem? (s I : List Nat) (h : IsIndex s I) : (fIndices s)[columnMajor s I]? = some I := by
  unfold IsIndex at h
  induction h with
  | nil => rfl
  | @cons i n I t hi _ ih =>
    unfold fIndices columnMajor
    rw [getElem?_flatMap_range (fIndices t) n (fun I i => i :: I) _ i hi, ih]
    rfl

theorem mem_fIndices (s I : List Nat) : I ∈ fIndices s ↔ IsIndex s I := by
  induction s generalizing I with
  | nil => cases I <;> simp [fIndices, IsIndex]
  | cons n t ih =>
    unfold fIndices
    rw [List.mem_flatMap]
    constructor
    · rintro ⟨J, hJ, hI⟩
      obtain ⟨i, hi, rfl⟩ := List.mem_map.1 hI
      exact List.Forall₂.cons (by simpa using hi) ((ih J).1 hJ)
    · intro h
      cases h with
      | cons hi hI => exact ⟨_, (ih _).2 hI, List.mem_map.2 ⟨_, by simpa using hi, rfl⟩⟩

theorem mem_cIndices (s I : List Nat) : I ∈ cIndices s ↔ IsIndex s I := by
  induction s generalizing I with
  | nil => cases I <;> simp [cIndices, IsIndex]
  | cons n t ih =>
    unfold cIndices
    rw [List.mem_flatMap]
    constructor
    · rintro ⟨i, hi, hI⟩
      obtain ⟨J, hJ, rfl⟩ := List.mem_map.1 hI
      exact List.Forall₂.cons (by simpa using hi) ((ih J).1 hJ)
    · intro h
      cases h with
      | cons hi hI => exact ⟨_, by simpa using hi, List.mem_map.2 ⟨_, (ih _).2 hI, rfl⟩⟩

theorem columnMajor_lt (s I : List Nat) (h : IsIndex s I) : columnMajor s I < s.prod := by
  rw [← fIndices_length]
  exact (List.getElem?_eq_some_iff.1 (fIndices_getElem? s I h)).1

theorem columnMajor_inj (s I J : List Nat) (hI : IsIndex s I) (hJ : IsIndex s J) (h : columnMajor s I = columnMajor s J) : I = J := by
  have h1 := fIndices_getElem? s I hI
  rw [h, fIndices_getElem? s J hJ] at h1
  exact (Option.some.inj h1).symm

/-- **C90.** The engine receives every pixel exactly once, in column-major order: the list of cells has as many entries as the image has pixels, the pixel with index `I` is at its
column-major position, and every position is that of exactly one pixel. -/
theorem C90_cells (X : NArr V) :
    (flattenF X).length = X.shape.prod ∧ (∀ I, IsIndex X.shape I → (flattenF X)[columnMajor X.shape I]? = some (X.val I)) ∧
      ∀ k, k < X.shape.prod → ∃! I, IsIndex X.shape I ∧ columnMajor X.shape I = k := by
  refine ⟨by rw [flattenF, List.length_map, fIndices_length], fun I hI => by rw [flattenF, List.getElem?_map, fIndices_getElem? _ _ hI]; rfl, ?_⟩
  intro k hk
  have hl : k < (fIndices X.shape).length := by rw [fIndices_length]; exact hk
  have hI := (mem_fIndices X.shape _).1 (List.getElem_mem hl)
  have hnd : (fIndices X.shape).Nodup := by
    generalize X.shape = s
    induction s with
    | nil => simp [fIndices]
    | cons n t ih =>
      unfold fIndices
      rw [List.nodup_flatMap]
      refine ⟨fun I _ => List.Nodup.map (fun a b h => by simpa using h) List.nodup_range, ?_⟩
      apply ih.imp
      intro I J hne
      simp only [Function.onFun]
      intro x hx hy
      obtain ⟨i, -, rfl⟩ := List.mem_map.1 hx
      obtain ⟨j, -, h⟩ := List.mem_map.1 hy
      exact hne (by simpa using (List.cons.inj h).2.symm)
  have hpos : columnMajor X.shape (fIndices X.shape)[k] = k := by
    have h1 := fIndices_getElem? X.shape _ hI
    have h2 := (List.getElem?_eq_some_iff.1 h1)
    obtain ⟨h3, h4⟩ := h2
    exact (List.Nodup.getElem_inj_iff hnd).1 h4
  refine ⟨(fIndices X.shape)[k], ⟨hI, hpos⟩, ?_⟩
  rintro J ⟨hJ, hk'⟩
  exact columnMajor_inj _ _ _ hJ hI (hk'.trans hpos.symm)

/-- Non-vacuity of C90: an image of shape 2 × 3. -/
example : flattenF (⟨[2, 3], fun I => 10 * I.getD 0 0 + I.getD 1 0⟩ : NArr Nat) = [0, 10, 1, 11, 2, 12] ∧ columnMajor [2, 3] [1, 2] = 5 := by decide +kernel

theorem foldl_max_spec (t : List V) (v : V) : t.foldl max v ∈ v :: t ∧ ∀ x ∈ v :: t, x ≤ t.foldl max v := by
  induction t generalizing v with
  | nil => simp
  | cons a t ih =>
    obtain ⟨h1, h2⟩ := ih (max v a)
    rw [List.foldl_cons]
    have hle : max v a ≤ t.foldl max (max v a) := h2 _ (by simp)
    refine ⟨?_, ?_⟩
    · rcases List.mem_cons.1 h1 with h | h
      · rw [h]
        rcases max_choice v a with h | h <;> rw [h] <;> simp
      · simp [h]
    · intro x hx
      rcases List.mem_cons.1 hx with rfl | hx
      · exact (le_max_left _ _).trans hle
      · rcases List.mem_cons.1 hx with rfl | hx
        · exact (le_max_right _ _).trans hle
        · exact h2 x (by simp [hx])

/-- `m` is the largest pixel value of a collection of images. -/
def IsLargestPixel (X : List (NArr V)) (m : V) : Prop :=
  (∃ x ∈ X, ∃ I, IsIndex x.shape I ∧ x.val I = m) ∧ ∀ x ∈ X, ∀ I, IsIndex x.shape I → x.val I ≤ m

theorem maxPixel_spec (X : List (NArr V)) (hX : X ≠ []) (hs : ∀ x ∈ X, ∃ I, IsIndex x.shape I) : ∃ m, maxPixel X = .ok m ∧ IsLargestPixel X m := by
  set g : NArr V → PyM V := fun x => match (cIndices x.shape).map x.val with
    | [] => .error .valueError
    | v :: t => .ok (t.foldl max v) with hg
  have hone : ∀ x ∈ X, ∃ m, g x = .ok m ∧ (∃ I, IsIndex x.shape I ∧ x.val I = m) ∧ ∀ I, IsIndex x.shape I → x.val I ≤ m := by
    intro x hx
    obtain ⟨I0, hI0⟩ := hs x hx
    cases hl : (cIndices x.shape).map x.val with
    | nil =>
      have := List.mem_map_of_mem (f := x.val) ((mem_cIndices _ _).2 hI0)
      rw [hl] at this; cases this
    | cons v t =>
      obtain ⟨h1, h2⟩ := foldl_max_spec t v
      refine ⟨t.foldl max v, by rw [hg]; simp only [hl], ?_, ?_⟩
      · rw [← hl] at h1
        obtain ⟨I, hI, he⟩ := List.mem_map.1 h1
        exact ⟨I, (mem_cIndices _ _).1 hI, he⟩
      · intro I hI
        apply h2
        rw [← hl]
        exact List.mem_map_of_mem ((mem_cIndices _ _).2 hI)
  have hms : ∀ l : List (NArr V), (∀ x ∈ l, x ∈ X) → ∃ ms, l.mapM g = .ok ms ∧ List.Forall₂ (fun x m => g x = .ok m) l ms := by
    intro l
    induction l with
    | nil => intro _; exact ⟨[], rfl, .nil⟩
    | cons a t ih =>
      intro h
      obtain ⟨ms, h1, h2⟩ := ih (fun x hx => h x (by simp [hx]))
      obtain ⟨m, hm, -⟩ := hone a (h a (by simp))
      exact ⟨m :: ms, by rw [List.mapM_cons, hm, ok_bind, h1]; rfl, .cons hm h2⟩
  obtain ⟨ms, h1, h2⟩ := hms X (fun _ h => h)
  have hmp : maxPixel X = (X.mapM g >>= fun ms => match ms with | [] => .error .valueError | m :: t => .ok (t.foldl max m)) := rfl
  rw [hmp, h1, ok_bind]
  cases ms with
  | nil => cases h2; exact absurd rfl hX
  | cons m t =>
    obtain ⟨h3, h4⟩ := foldl_max_spec t m
    refine ⟨_, rfl, ?_, ?_⟩
    · obtain ⟨k, hk⟩ := List.getElem_of_mem h3
      obtain ⟨hk1, hk2⟩ := hk
      have hlen := h2.length_eq
      have hx := (List.forall₂_iff_get.1 h2).2 k (by omega) hk1
      simp only [List.get_eq_getElem] at hx
      rw [hk2] at hx
      obtain ⟨m', hm', ⟨I, hI, he⟩, -⟩ := hone X[k] (List.getElem_mem _)
      rw [hx] at hm'
      cases hm'
      exact ⟨X[k], List.getElem_mem _, I, hI, he⟩
    · intro x hx I hI
      obtain ⟨k, hk1, hk2⟩ := List.getElem_of_mem hx
      have hlen := h2.length_eq
      have hg' := (List.forall₂_iff_get.1 h2).2 k hk1 (by omega)
      simp only [List.get_eq_getElem] at hg'
      obtain ⟨m', hm', -, hle⟩ := hone x hx
      rw [hk2, hm'] at hg'
      cases hg'
      exact (hle I hI).trans (h4 _ (List.getElem_mem _))

/-- **C90.** End to end: the diagram of an image has the bars that the engine reports for its shape, its pixels in column-major order and the requested periodicity, where bars that never
die get the given value or, by default, the largest pixel value of the images passed to `fit`. -/
theorem C90_cubical (engine : List Nat → List V → Option (List Bool) → List (Nat × (Raw V × Raw V))) (hd : List Nat) (hd0 : hd ≠ []) (hnd : hd.Nodup) (infv : Option V)
    (periodic : Option (List Bool)) (zero lowest : V) (reduced : Bool) (garbage : Nat → Nat → Pt V Nat) (order : List Nat) (X Y : List (NArr V)) (hX : X ≠ [])
    (hs : ∀ x ∈ X, ∃ I, IsIndex x.shape I) (hY : Y ≠ []) (horder : ∀ i, i < Y.length → i ∈ order) :
    ∃ inf R, (infv = none → IsLargestPixel X inf) ∧ (∀ v, infv = some v → inf = v) ∧
      cubicalFitTransform engine hd infv periodic zero lowest reduced garbage order X Y = .ok R ∧ R.length = Y.length ∧
      ∀ (i : Nat) y D', Y[i]? = some y → R[i]? = some D' → (∀ p ∈ D', p.q ∈ hd) ∧ ∃ cells : List V, cells.length = y.shape.prod ∧ (∀ I, IsIndex y.shape I → cells[columnMajor y.shape I]? = some (y.val I)) ∧
        ∀ q ∈ hd, ∃ pads : List (Pt V Nat),
        let pairs := engine y.shape cells (if true ∈ periodic.getD [] then periodic else none)
        let bars := pairs.filterMap fun p => if p.1 = q then some p.2 else none
        pointsIn D' q = ((reportedBars inf zero lowest (if q = 0 ∧ reduced = true then bars.tail else bars)).map fun v => ⟨v.1, v.2, q⟩) ++ pads ∧ ∀ p ∈ pads, p.b = p.d := by
  obtain ⟨m, hm, hmax⟩ := maxPixel_spec X hX hs
  obtain ⟨⟨lo, hlo⟩, hi, hhi⟩ := exists_extremes hd hd0
  have hper : (cubicalPeriodic X.length periodic).2 = if true ∈ periodic.getD [] then periodic else none := by
    cases periodic with
    | none => simp [cubicalPeriodic]
    | some p =>
      unfold cubicalPeriodic
      simp only [Option.getD_some]
      by_cases h : true ∈ p
      · rw [if_neg, if_pos h]
        rw [List.length_eq_zero_iff, List.filter_eq_nil_iff]
        intro hall
        exact hall true h rfl
      · rw [if_pos, if_neg h]
        rw [List.length_eq_zero_iff, List.filter_eq_nil_iff]
        intro b hb hb'
        simp only [id] at hb'
        exact h (hb' ▸ hb)
  have main : ∀ default : V, ∃ R, fitTransform .gudhi (fun _ x => cubicalDiagram engine (cubicalPeriodic X.length periodic).2 x) hd infv default zero lowest reduced garbage order Y = .ok R ∧
      R.length = Y.length ∧
      ∀ (i : Nat) y D', Y[i]? = some y → R[i]? = some D' → (∀ p ∈ D', p.q ∈ hd) ∧ ∃ cells : List V, cells.length = y.shape.prod ∧ (∀ I, IsIndex y.shape I → cells[columnMajor y.shape I]? = some (y.val I)) ∧
        ∀ q ∈ hd, ∃ pads : List (Pt V Nat),
        let pairs := engine y.shape cells (if true ∈ periodic.getD [] then periodic else none)
        let bars := pairs.filterMap fun p => if p.1 = q then some p.2 else none
        pointsIn D' q = ((reportedBars (infv.getD default) zero lowest (if q = 0 ∧ reduced = true then bars.tail else bars)).map fun v => ⟨v.1, v.2, q⟩) ++ pads ∧
          ∀ p ∈ pads, p.b = p.d := by
    intro default
    obtain ⟨R, h1, h2, h3⟩ := transform_spec .gudhi (fun _ x => cubicalDiagram engine (cubicalPeriodic X.length periodic).2 x) zero lowest reduced garbage order hd hnd infv default lo hi
      hlo hhi Y hY horder _ rfl (fun _ _ => trivial)
    refine ⟨R, h1, h2, fun i y D' hy hD' => ⟨(h3 i y D' hy hD').1, flattenF y, (C90_cells y).1, (C90_cells y).2.1, fun q hq => ?_⟩⟩
    obtain ⟨pads, h4, h5⟩ := (h3 i y D' hy hD').2 q hq
    refine ⟨pads, ?_, h5⟩
    rw [h4, expectedBars_eq, hper]
    rfl
  cases infv with
  | none =>
    obtain ⟨R, h1, h2⟩ := main m
    refine ⟨m, R, fun _ => hmax, fun v hv => (by cases hv), ?_, h2⟩
    unfold cubicalFitTransform
    simp only
    rw [hm, ok_bind]
    exact h1
  | some v =>
    obtain ⟨R, h1, h2⟩ := main v
    refine ⟨v, R, fun h => (by cases h), fun w hw => Option.some.inj hw, ?_, h2⟩
    unfold cubicalFitTransform
    simp only
    rw [ok_bind]
    exact h1

end

/-- **C90, false: `periodic_dimensions_`.** Documented to have one entry per image dimension, its length without periodic axes is the number of samples minus one: three images, of whatever
dimension, give two entries. -/
theorem C90_refuted_periodic_attribute (n : Nat) (p : Option (List Bool)) (hp : ∀ l, p = some l → true ∉ l) : (cubicalPeriodic n p).1.length = n - 1 := by
  cases p with
  | none => simp [cubicalPeriodic]
  | some l =>
    unfold cubicalPeriodic
    simp only
    rw [if_pos]
    · simp
    · rw [List.length_eq_zero_iff, List.filter_eq_nil_iff]
      intro b hb hb'
      simp only [id] at hb'
      exact hp l rfl (hb' ▸ hb)

/-- Non-vacuity of C90. -/
example : cubicalFitTransform (fun _ cells _ => [(0, ((.num (cells.getD 0 0) : Raw ℚ), .posinf)), (0, (.num (cells.getD 1 0), .num 9))]) [0] none none 0 (-100) false
    (fun _ _ => ⟨0, 0, 0⟩) [0] [⟨[2, 2], fun I => (I.getD 0 0 : ℚ) + 2 * I.getD 1 0⟩] [⟨[2, 2], fun I => (I.getD 0 0 : ℚ) + 2 * I.getD 1 0⟩] =
      .ok [[⟨0, 3, 0⟩, ⟨1, 9, 0⟩]] := by decide +kernel

end Gtda.Props
