import Verif.Spec.SeriesObject
import Verif.Props.TimeSeriesMore
import Verif.Props.TimeSeriesWindows

set_option autoImplicit false
set_option linter.unusedSectionVars false

/-!
# C126: `Labeller` and `SingleTakensEmbedding` as fitted objects
-/

namespace Gtda.Props.SeriesObject
open Gtda.Py Gtda.TimeSeries Gtda.SeriesObject Gtda.Spec Gtda.Spec.SeriesObject

section
variable {Fn Q K : Type} [Field K] [LinearOrder K] [IsStrictOrderedRing K] [FloorRing K]

theorem validate_iff (p : LParams Fn Q K) : labellerValidate p = .ok () ↔ 1 ≤ p.size ∧ 1 ≤ p.nSteps ∧ ∀ ps, p.percentiles = some ps → ∀ q ∈ ps, 0 ≤ q ∧ q ≤ 100 := by
  unfold labellerValidate
  by_cases h : p.size < 1 ∨ p.nSteps < 1
  · rw [if_pos h]
    constructor
    · intro h; cases h
    · rintro ⟨h1, h2, -⟩; omega
  · rw [if_neg h]
    have : 1 ≤ p.size ∧ 1 ≤ p.nSteps := by omega
    cases hp : p.percentiles with
    | none => simp [this]
    | some ps => simp [this]

theorem validate_error (p : LParams Fn Q K) (h : labellerValidate p ≠ .ok ()) : labellerValidate p = .error .valueError := by
  unfold labellerValidate at h ⊢
  split_ifs at h ⊢ <;> first | rfl | exact absurd rfl h

/-- What an accepted fit leaves behind. -/
def fitted (E : Env Fn Q K) (p : LParams Fn Q K) (X : List K) : Labeller Fn Q K :=
  ⟨p, some p.size, some (p.funcParams.getD E.noParams),
    some (p.percentiles.map fun ps => ps.map (percentile (((List.range (X.length - p.size + 1)).map fun i => E.apply p.func (p.funcParams.getD E.noParams) ((X.drop i).take p.size)).map absK)))⟩

theorem sliding_ok (size : Nat) (X : List K) (h : size ≤ X.length) : slidingTransform size 1 X = .ok ((List.range (X.length - size + 1)).map fun i => (X.drop i).take size) := by
  have := labellerWindowed_ok size (fun w : List K => w) X h
  unfold labellerWindowed at this
  cases hs : slidingTransform size 1 X with
  | error e => rw [hs] at this; cases this
  | ok w =>
    rw [hs] at this
    change Except.ok (w.map fun w => w) = _ at this
    rw [List.map_id'] at this
    exact this

theorem sliding_short (size : Nat) (X : List K) (h : X.length < size) : slidingTransform size 1 X = .error .valueError := by
  unfold slidingTransform
  rw [windowIndices_err _ _ _ (by omega) h]; rfl

theorem fit_ok (E : Env Fn Q K) (o : Labeller Fn Q K) (X : List K) (h : Fittable o.params X) : labellerFit E o X = (fitted E o.params X, .ok ()) := by
  obtain ⟨h1, h2, h3, h4⟩ := h
  unfold labellerFit
  rw [(validate_iff o.params).2 ⟨h1, h2, h3⟩]
  dsimp only
  rw [if_neg (by omega), sliding_ok _ _ h4]
  dsimp only
  unfold fitted
  cases o.params.funcParams <;> simp only [List.map_map, Function.comp_def, Option.getD_none, Option.getD_some]

theorem fit_error (E : Env Fn Q K) (o : Labeller Fn Q K) (X : List K) (h : ¬ Fittable o.params X) :
    labellerFit E o X = ({ o with window := if labellerValidate o.params = .ok () ∧ X ≠ [] then some o.params.size else o.window }, .error .valueError) := by
  unfold labellerFit
  by_cases hv : labellerValidate o.params = .ok ()
  · rw [hv]
    dsimp only
    by_cases hx : X = []
    · subst hx
      simp
    · have hx' : X.length ≠ 0 := fun hc => hx (List.length_eq_zero_iff.1 hc)
      have hshort : X.length < o.params.size := by
        by_contra hc
        obtain ⟨h1, h2, h3⟩ := (validate_iff o.params).1 hv
        exact h ⟨h1, h2, h3, by omega⟩
      rw [if_neg hx', sliding_short _ _ hshort]
      simp [hx]
  · rw [validate_error _ hv]
    simp

theorem run_params (E : Env Fn Q K) (ops : List (LOp Fn Q K)) : ∀ o : Labeller Fn Q K, (labellerRun E ops o).params = lastParams o.params ops := by
  induction ops with
  | nil => intro o; rfl
  | cons op ops ih =>
    intro o
    cases op with
    | set p => exact ih _
    | fit X =>
      refine (ih _).trans ?_
      have : (labellerFit E o X).1.params = o.params := by
        by_cases h : Fittable o.params X
        · rw [fit_ok E o X h]; rfl
        · rw [fit_error E o X h]
      rw [this]; rfl

theorem run_never (E : Env Fn Q K) (ops : List (LOp Fn Q K)) : ∀ o : Labeller Fn Q K, o.thresholds = none → NeverFitted o.params ops → (labellerRun E ops o).thresholds = none := by
  induction ops with
  | nil => intro o h _; exact h
  | cons op ops ih =>
    intro o h hn
    cases op with
    | set p => exact ih { o with params := p } h hn
    | fit X =>
      refine ih (labellerFit E o X).1 ?_ ?_
      · rw [fit_error E o X hn.1]; exact h
      · rw [fit_error E o X hn.1]; exact hn.2

theorem allValues_eq (E : Env Fn Q K) (func : Fn) (params : Q) (size : Nat) (hs : 1 ≤ size) (y : List K) :
    allValues E func params size y = (List.range (y.length - size + 1)).map fun i => E.apply func params ((y.drop i).take size) := by
  unfold allValues windowValue
  refine List.map_congr_left fun i _ => ?_
  have : i + size - 1 + 1 - size = i := by omega
  rw [this]

end

end Gtda.Props.SeriesObject

namespace Gtda.Props
open Gtda.Py Gtda.TimeSeries Gtda.SeriesObject Gtda.Spec Gtda.Spec.SeriesObject Gtda.Props.SeriesObject

section
variable {Fn Q K : Type} [Field K] [LinearOrder K] [IsStrictOrderedRing K] [FloorRing K]

/-- **C126.** `Labeller.fit` succeeds exactly if the parameters are admissible and the series is as long as a window; otherwise it raises `ValueError`. Nothing of the history matters for an accepted fit. -/
theorem C126_labeller_fit (E : Env Fn Q K) (p : LParams Fn Q K) (ops : List (LOp Fn Q K)) (X : List K) :
    (Fittable (lastParams p ops) X → (labellerFit E (labellerRun E ops (newLabeller p)) X).2 = .ok () ∧
      (labellerFit E (labellerRun E ops (newLabeller p)) X).1 = (labellerFit E (newLabeller (lastParams p ops)) X).1) ∧
    (¬ Fittable (lastParams p ops) X → (labellerFit E (labellerRun E ops (newLabeller p)) X).2 = .error .valueError) := by
  have hp : (labellerRun E ops (newLabeller p)).params = lastParams p ops := run_params E ops _
  constructor
  · intro h
    rw [fit_ok E _ X (by rw [hp]; exact h), hp, fit_ok E (newLabeller (lastParams p ops)) X h]
    exact ⟨rfl, rfl⟩
  · intro h
    rw [fit_error E _ X (by rw [hp]; exact h)]

/-- **C126.** Before the first accepted fit, `transform` and `resample` raise `NotFittedError`. -/
theorem C126_labeller_not_fitted (E : Env Fn Q K) (p : LParams Fn Q K) (ops : List (LOp Fn Q K)) (h : NeverFitted p ops) (X : List K) :
    labellerObjTransform (labellerRun E ops (newLabeller p)) X = .error .notFitted ∧ labellerObjResample E (labellerRun E ops (newLabeller p)) X = .error .notFitted := by
  have := run_never E ops (newLabeller p) rfl h
  unfold labellerObjTransform labellerObjResample
  rw [this]
  exact ⟨rfl, rfl⟩

/-- **C126.** After an accepted fit (following any history), parameters may be set again as long as size and function stay the same and `n_steps_future` is positive: on series `X` and `y` of the same length, at least that of a window, `transform` and `resample` return
equally many entries; entry `i` of the former is sample `j = i + (size - 1 - n_steps_future)` of `X` (truncated subtraction), and the label is made from the function of the window of `y` ending `n_steps_future` after `j`: the value itself without
percentiles, and with percentiles (in ascending order) the number of thresholds reached by its absolute value, the thresholds being the percentiles of the absolute values on the training series. -/
theorem C126_labeller_partial (E : Env Fn Q K) (p : LParams Fn Q K) (ops : List (LOp Fn Q K)) (T : List K) (hfit : Fittable (lastParams p ops) T) (p0 : LParams Fn Q K) (hp0 : p0 = lastParams p ops)
    (p' : LParams Fn Q K) (hsize : p'.size = p0.size) (hfunc : p'.func = p0.func) (hn : 1 ≤ p'.nSteps) (X y : List K) (hlen : X.length = y.length) (hy : p0.size ≤ y.length) (eff : Q) (heff : eff = p0.funcParams.getD E.noParams) :
    ∃ xs, labellerObjTransform { (labellerFit E (labellerRun E ops (newLabeller p)) T).1 with params := p' } X = .ok xs ∧
      (∀ i, i < xs.length → xs[i]? = X[i + (p0.size - 1 - p'.nSteps)]? ∧ i + (p0.size - 1 - p'.nSteps) + p'.nSteps < y.length) ∧
      (p0.percentiles = none → ∃ l, labellerObjResample E { (labellerFit E (labellerRun E ops (newLabeller p)) T).1 with params := p' } y = .ok (.values l) ∧ l.length = xs.length ∧
        ∀ i, i < l.length → l[i]? = some (windowValue E p0.func eff p0.size y (i + (p0.size - 1 - p'.nSteps) + p'.nSteps))) ∧
      (∀ ps, p0.percentiles = some ps → ps ≠ [] → ps.Pairwise (· ≤ ·) → ∃ th l, List.Forall₂ (IsPercentile ((allValues E p0.func eff p0.size T).map fun v => |v|)) ps th ∧
        labellerObjResample E { (labellerFit E (labellerRun E ops (newLabeller p)) T).1 with params := p' } y = .ok (.classes l) ∧ l.length = xs.length ∧
        ∀ i, i < l.length → l[i]? = some (th.countP fun t => decide (t ≤ |windowValue E p0.func eff p0.size y (i + (p0.size - 1 - p'.nSteps) + p'.nSteps)|))) := by
  have hp : (labellerRun E ops (newLabeller p)).params = p0 := (run_params E ops _).trans hp0.symm
  rw [← hp0] at hfit
  obtain ⟨h1, h2, h3, h4⟩ := hfit
  rw [fit_ok E _ T (by rw [hp]; exact ⟨h1, h2, h3, h4⟩), hp]
  have hx : labellerObjTransform { (fitted E p0 T, (Except.ok () : PyM Unit)).1 with params := p' } X = .ok (labellerTransform p0.size p'.nSteps X) := by
    unfold labellerObjTransform fitted
    dsimp only
    rw [hsize]
  have hw := fun i hi => labeller_sample_index p0.size p'.nSteps X hn i hi
  have hlx : (labellerTransform p0.size p'.nSteps X).length = y.length - p'.nSteps - (p0.size - 1 - p'.nSteps) := by
    rw [labellerTransform_eq _ _ _ hn, List.length_drop, List.length_take, hlen]
    omega
  have hval : ∀ i, i < (labellerTransform p0.size p'.nSteps X).length →
      i + (p'.nSteps + 1 - p0.size) < y.length - p0.size + 1 ∧ i + (p0.size - 1 - p'.nSteps) + p'.nSteps + 1 - p0.size = i + (p'.nSteps + 1 - p0.size) := by
    intro i hi
    rw [hlx] at hi
    omega
  have hcutlen : ∀ {β : Type} (g : Nat → β), (((List.range (y.length - p0.size + 1)).map g).drop (p'.nSteps + 1 - p0.size)).length = (labellerTransform p0.size p'.nSteps X).length := by
    intro β g
    rw [hlx, List.length_drop, List.length_map, List.length_range]
    omega
  refine ⟨_, hx, fun i hi => ⟨(hw i hi).1, by have := (hw i hi).2; omega⟩, ?_, ?_⟩
  · intro hnone
    refine ⟨((List.range (y.length - p0.size + 1)).map fun i => E.apply p0.func eff ((y.drop i).take p0.size)).drop (p'.nSteps + 1 - p0.size), ?_, hcutlen _, ?_⟩
    · unfold labellerObjResample fitted
      rw [hnone]
      dsimp only [Option.map_none]
      rw [labellerWindowed_ok _ _ _ hy, ok_bind, hfunc, hsize, labellerCut_eq, heff]
    · intro i hi
      rw [hcutlen] at hi
      obtain ⟨ha, hb⟩ := hval i hi
      rw [List.getElem?_drop, Nat.add_comm _ i, List.getElem?_map, List.getElem?_range ha]
      unfold windowValue
      rw [hb]
      rfl
  · intro ps hps hne hsorted
    set f := E.apply p0.func eff with hf
    obtain ⟨th, vals, hth, -, hperc, hreg, hclf, -⟩ := C09_labeller_classes p0.size p'.nSteps h1 f ps hne hsorted (h3 ps hps) T y h4 hy
    have hvals : vals = ((List.range (y.length - p0.size + 1)).map fun i => f ((y.drop i).take p0.size)).drop (p'.nSteps + 1 - p0.size) := by
      unfold labellerResampleReg at hreg
      rw [labellerWindowed_ok _ _ _ hy] at hreg
      change Except.ok (labellerCut p0.size p'.nSteps _) = _ at hreg
      rw [labellerCut_eq] at hreg
      cases hreg
      rfl
    have hth' : th = ps.map (percentile (((List.range (T.length - p0.size + 1)).map fun i => f ((T.drop i).take p0.size)).map absK)) := by
      unfold labellerThresholds at hth
      rw [labellerWindowed_ok _ _ _ h4] at hth
      cases hth
      rfl
    refine ⟨th, vals.map fun v => th.countP (· ≤ |v|), ?_, ?_, ?_, ?_⟩
    · have : (allValues E p0.func eff p0.size T).map (fun v => |v|) = (List.range (T.length - p0.size + 1)).map fun i => |f ((T.drop i).take p0.size)| := by
        rw [allValues_eq _ _ _ _ h1, List.map_map]; rfl
      rw [this]
      exact hperc
    · unfold labellerObjResample fitted
      rw [hps]
      dsimp only [Option.map_some]
      rw [← heff, hfunc, ← hf, ← hth', hsize]
      unfold labellerResampleClf at hclf
      cases hwin : labellerWindowed p0.size f y with
      | error e => rw [hwin] at hclf; cases hclf
      | ok yr =>
        rw [hwin, ok_bind] at hclf
        rw [ok_bind]
        cases hc : labellerClassify th (yr.map absK) with
        | error e => rw [hc] at hclf; cases hclf
        | ok c =>
          rw [hc, ok_bind] at hclf
          rw [ok_bind, Except.ok.inj hclf]
    · rw [List.length_map, hvals, hcutlen]
    · intro i hi
      rw [List.length_map, hvals, hcutlen] at hi
      obtain ⟨ha, hb⟩ := hval i hi
      rw [hvals, List.getElem?_map, List.getElem?_drop, Nat.add_comm _ i, List.getElem?_map, List.getElem?_range ha]
      unfold windowValue
      rw [hb]
      rfl

/-- **C126.** An empty list of percentiles is accepted by `fit`, and `resample` then raises `IndexError` on every series as long as a window. -/
theorem C126_no_percentiles (E : Env Fn Q K) (p : LParams Fn Q K) (T : List K) (h : Fittable p T) (hp : p.percentiles = some []) (y : List K) (hy : p.size ≤ y.length) :
    (labellerFit E (newLabeller p) T).2 = .ok () ∧ labellerObjResample E (labellerFit E (newLabeller p) T).1 y = .error .indexError := by
  rw [fit_ok E (newLabeller p) T h]
  refine ⟨rfl, ?_⟩
  change labellerObjResample E (fitted E p T) y = _
  unfold labellerObjResample fitted
  rw [hp]
  dsimp only [Option.map_some]
  rw [labellerWindowed_ok _ _ _ hy, ok_bind, List.map_nil]
  have : labellerClassify ([] : List K) (List.map absK ((List.range (y.length - p.size + 1)).map fun i => E.apply p.func (p.funcParams.getD E.noParams) ((y.drop i).take p.size))) = .error .indexError := by
    rw [List.range_succ_eq_map]
    rfl
  rw [this]
  rfl

end

/-- The function of the examples: the sum of the window, or its last value. -/
def SeriesObject.exEnv : Env Bool Unit ℚ := ⟨fun f _ w => if f then w.sum else w.getLast?.getD 0, ()⟩

/-- The parameters of the examples. -/
def SeriesObject.exParams : LParams Bool Unit ℚ := ⟨3, true, none, some [50], 1⟩

/-- Sliding windows of three values, thresholds at the median. -/
example : Fittable SeriesObject.exParams [1, -2, 3, -4, 5] ∧ labellerObjTransform (labellerFit SeriesObject.exEnv (newLabeller SeriesObject.exParams) [1, -2, 3, -4, 5]).1 [10, 20, 30, 40, 50] = .ok [20, 30, 40] ∧
    labellerObjResample SeriesObject.exEnv (labellerFit SeriesObject.exEnv (newLabeller SeriesObject.exParams) [1, -2, 3, -4, 5]).1 [1, -2, 3, -4, 5] = .ok (.classes [0, 1, 1]) := by
  refine ⟨⟨by decide, by decide, ?_, by decide⟩, ?_, ?_⟩
  · intro ps h
    cases h
    decide +kernel
  · decide +kernel
  · decide +kernel

/-- A history in which nothing was fitted although `fit` was called twice. -/
example : NeverFitted SeriesObject.exParams [.fit [1, 2], .set { SeriesObject.exParams with size := 0 }, .fit [1, 2, 3]] :=
  ⟨fun h => absurd h.2.2.2 (by decide), fun h => absurd h.1 (by decide), trivial⟩

/-- **C126 refuted for a changed size.** After `set_params(size=2)` on an object fitted with windows of three values, `transform` returns four entries and `resample` three. -/
theorem C126_refuted_size : ∃ (o : Labeller Bool Unit ℚ) (xs l : List ℚ), o = (labellerFit SeriesObject.exEnv (newLabeller { SeriesObject.exParams with percentiles := none }) [1, 2, 3, 4, 5]).1 ∧
    labellerObjTransform { o with params := { o.params with size := 2 } } [1, 2, 3, 4, 5] = .ok xs ∧ labellerObjResample SeriesObject.exEnv { o with params := { o.params with size := 2 } } [1, 2, 3, 4, 5] = .ok (.values l) ∧
    xs.length = 4 ∧ l.length = 3 :=
  ⟨_, [1, 2, 3, 4], [6, 9, 12], rfl, by decide +kernel, by decide +kernel, rfl, rfl⟩

/-- **C126 refuted for a refused second fit.** The object is fitted with windows of two values. A fit with windows of four values is refused because the series is too short, and the size is set back:
`transform` and `resample` on the training series now return different numbers of entries, although present parameters and training data are those of the only accepted fit. -/
theorem C126_refuted_failed_fit : ∃ (p p2 : LParams Bool Unit ℚ) (T : List ℚ) (o : Labeller Bool Unit ℚ) (xs l : List ℚ),
    o = labellerRun SeriesObject.exEnv [.fit T, .set p2, .fit [1], .set p] (newLabeller p) ∧ (labellerFit SeriesObject.exEnv (newLabeller p2) [1]).2 = .error .valueError ∧
    labellerObjTransform o T = .ok xs ∧ labellerObjResample SeriesObject.exEnv o T = .ok (.values l) ∧ xs.length ≠ l.length ∧
    ∃ l', labellerObjResample SeriesObject.exEnv (labellerFit SeriesObject.exEnv (newLabeller p) T).1 T = .ok (.values l') ∧ xs.length = l'.length :=
  ⟨⟨2, true, none, none, 1⟩, ⟨4, true, none, none, 1⟩, [1, 2, 3, 4, 5], _, [1, 2, 3, 4], [10, 14], rfl, by decide +kernel, by decide +kernel, by decide +kernel, by decide,
    [3, 5, 7, 9], by decide +kernel, rfl⟩

/-- **C126 refuted for a changed function.** A new function is used at once, but its values are compared with the thresholds of the old one: the labels are not those of an object fitted with the new function. -/
theorem C126_refuted_func : ∃ (o : Labeller Bool Unit ℚ) (p' : LParams Bool Unit ℚ) (l l' : List Nat), o = (labellerFit SeriesObject.exEnv (newLabeller SeriesObject.exParams) [1, 2, 3, 4, 5]).1 ∧ p' = { SeriesObject.exParams with func := false } ∧
    labellerObjResample SeriesObject.exEnv { o with params := p' } [1, 2, 3, 4, 5] = .ok (.classes l) ∧
    labellerObjResample SeriesObject.exEnv (labellerFit SeriesObject.exEnv (newLabeller p') [1, 2, 3, 4, 5]).1 [1, 2, 3, 4, 5] = .ok (.classes l') ∧ l ≠ l' :=
  ⟨_, _, [0, 0, 0], [0, 1, 1], rfl, rfl, by decide +kernel, by decide +kernel, by decide⟩

/-! ### `SingleTakensEmbedding` -/

section
variable {K α β : Type}

/-- **C126.** After every history, a `SingleTakensEmbedding` consists of its present parameters and of the pair of the last accepted fit: refused fits have no effect, and a fit succeeds exactly if it determines a pair. -/
theorem C126_takens_state (search : List K → Nat → Nat → Nat → PyM (Nat × Nat)) (p : TParams) (ops : List (TOp K)) :
    takensRun search ops (newTakens p) = ⟨(takensAfter search (p, none) ops).1, (takensAfter search (p, none) ops).2⟩ ∧
    ∀ X, ((takensFit search (takensRun search ops (newTakens p)) X).2 = .ok () ↔ (takensFound search (takensAfter search (p, none) ops).1 X).isSome) := by
  have hfit : ∀ (o : Takens) (X : List K), (takensFit search o X).1 = ⟨o.params, (takensFound search o.params X).or o.found⟩ ∧ ((takensFit search o X).2 = .ok () ↔ (takensFound search o.params X).isSome) := by
    intro o X
    unfold takensFit takensFound
    by_cases h : o.params.timeDelay < 1 ∨ o.params.dimension < 1 ∨ o.params.stride < 1
    · have h' : ¬ (1 ≤ o.params.timeDelay ∧ 1 ≤ o.params.dimension ∧ 1 ≤ o.params.stride) := by omega
      rw [if_pos h, if_neg h']
      exact ⟨rfl, ⟨fun h => (by cases h), fun h => (by cases h)⟩⟩
    · have h' : 1 ≤ o.params.timeDelay ∧ 1 ≤ o.params.dimension ∧ 1 ≤ o.params.stride := by omega
      rw [if_neg h, if_pos h']
      by_cases hs : o.params.search
      · rw [if_pos hs, if_pos hs]
        cases search X o.params.timeDelay o.params.dimension o.params.stride with
        | error e => exact ⟨rfl, ⟨fun h => (by cases h), fun h => (by cases h)⟩⟩
        | ok r => exact ⟨rfl, ⟨fun _ => rfl, fun _ => rfl⟩⟩
      · rw [if_neg hs, if_neg hs]
        exact ⟨rfl, ⟨fun _ => rfl, fun _ => rfl⟩⟩
  have hrun : ∀ (ops : List (TOp K)) (o : Takens), takensRun search ops o = ⟨(takensAfter search (o.params, o.found) ops).1, (takensAfter search (o.params, o.found) ops).2⟩ := by
    intro ops
    induction ops with
    | nil => intro o; rfl
    | cons op ops ih =>
      intro o
      cases op with
      | set q => exact ih { o with params := q }
      | fit X =>
        refine (ih (takensFit search o X).1).trans ?_
        rw [(hfit o X).1]
        rfl
  refine ⟨hrun ops (newTakens p), fun X => ?_⟩
  rw [hrun ops (newTakens p)]
  exact (hfit _ X).2

/-- **C126.** Before the first accepted fit both methods raise `NotFittedError`. -/
theorem C126_takens_not_fitted (search : List K → Nat → Nat → Nat → PyM (Nat × Nat)) (p : TParams) (ops : List (TOp K)) (h : (takensAfter search (p, none) ops).2 = none) (X : List α) :
    takensTransform (takensRun search ops (newTakens p)) X = .error .notFitted ∧ takensResample (takensRun search ops (newTakens p)) X = .error .notFitted := by
  rw [(C126_takens_state search p ops).1]
  unfold takensTransform takensResample
  rw [h]
  exact ⟨rfl, rfl⟩

/-- **C126 (partial: dimension at least two).** After every history with an accepted fit, `transform` returns the delay embedding for the delay and dimension of the last accepted fit and the *present* stride, its last vector ending with the last sample,
and `resample` returns the entries observed together with the last coordinates. Missing: dimension one, where `resample` returns nothing (C05). -/
theorem C126_takens_partial (search : List K → Nat → Nat → Nat → PyM (Nat × Nat)) (p p' : TParams) (ops : List (TOp K)) (τ d : Nat) (h : takensAfter search (p, none) ops = (p', some (τ, d))) (hτ : 1 ≤ τ) (hd : 2 ≤ d) (hs : 1 ≤ p'.stride)
    (X : List α) (y : List β) (hlen : X.length = y.length) (hlong : τ * (d - 1) < X.length) :
    ∃ E first l, takensTransform (takensRun search ops (newTakens p)) X = .ok E ∧ IsDelayEmbedding τ d p'.stride first X E ∧ first + (E.length - 1) * p'.stride + (d - 1) * τ + 1 = X.length ∧
      takensResample (takensRun search ops (newTakens p)) y = .ok l ∧ l.length = E.length ∧
      ∀ i (hi : i < E.length), E[i].getLast? = X[first + i * p'.stride + (d - 1) * τ]? ∧ l[i]? = y[first + i * p'.stride + (d - 1) * τ]? := by
  rw [(C126_takens_state search p ops).1, h]
  obtain ⟨E, first, hE, hemb, -, hfirst⟩ := (C04_takens_univariate X τ d p'.stride true (by omega) hs).2 hlong
  obtain ⟨E', first', hE', hemb', -, hfirst'⟩ := (C04_takens_univariate (List.range y.length) τ d p'.stride true (by omega) hs).2 (by rw [List.length_range]; omega)
  obtain ⟨hl, hal⟩ := C05_takens_resample_aligned_partial y τ d p'.stride hτ hd hs E' hE'
  have hEE : E'.length = E.length := by rw [hemb.count, hemb'.count, List.length_range, hlen]
  have hff : first' = first := by
    have h1 := hfirst rfl
    have h2 := hfirst' rfl
    rw [List.length_range, hEE] at h2
    omega
  refine ⟨E, first, singleTakensResample τ d p'.stride y, ?_, hemb, hfirst rfl, ?_, by rw [hl, hEE], ?_⟩
  · unfold takensTransform
    dsimp only
    rw [if_neg (by omega)]
    exact hE
  · unfold takensResample
    dsimp only
    rw [if_neg (by omega)]
  · intro i hi
    have hlast : E[i].getLast? = E[i][d - 1]? := by rw [List.getLast?_eq_getElem?, hemb.dims i hi]
    refine ⟨hlast.trans (hemb.coords i hi (d - 1) (by omega)).2, ?_⟩
    have hi' : i < E'.length := by omega
    obtain ⟨t, ht, -, hy⟩ := hal i hi'
    have hlast' : E'[i].getLast? = E'[i][d - 1]? := by rw [List.getLast?_eq_getElem?, hemb'.dims i hi']
    obtain ⟨hlt, hco⟩ := hemb'.coords i hi' (d - 1) (by omega)
    rw [List.length_range] at hlt
    rw [hlast', hco, List.getElem?_range hlt, hff] at ht
    cases ht
    exact hy

end

/-- Fitted with delay one and dimension two; a refused fit and new parameters later, only the stride has changed. -/
example : takensAfter (fun (_ : List ℚ) _ _ _ => .ok (1, 2)) (⟨false, 1, 2, 1⟩, none) [.fit [1, 2, 3], .set ⟨true, 0, 7, 1⟩, .fit [1], .set ⟨false, 4, 7, 2⟩] = (⟨false, 4, 7, 2⟩, some (1, 2)) ∧
    takensTransform (takensRun (fun (_ : List ℚ) _ _ _ => .ok (1, 2)) [.fit [1, 2, 3], .set ⟨true, 0, 7, 1⟩, .fit [1], .set ⟨false, 4, 7, 2⟩] (newTakens ⟨false, 1, 2, 1⟩)) [1, 2, 3, 4, 5] = .ok [[2, 3], [4, 5]] := by
  refine ⟨by decide +kernel, by decide +kernel⟩

end Gtda.Props
