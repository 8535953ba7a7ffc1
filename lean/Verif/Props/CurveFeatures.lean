import Verif.Spec.CurveFeatures
import Verif.Props.MapperCluster
import Verif.Props.Validation
import Verif.Lemmas.Diagrams
import Mathlib.Algebra.Group.ForwardDiff
import Mathlib.Data.Rat.Floor

set_option autoImplicit false
set_option linter.unusedSectionVars false

/-!
# C78, C79: derivatives and features of curves
-/

namespace Gtda.Props
open Gtda.Py Gtda.CurveFeatures Gtda.Spec Gtda.Parallel Gtda.Validation

/-! ### C78 -/

section
variable {K : Type} [CommRing K]

theorem npDiff_getElem? (x : List K) (i : Nat) : (TimeSeries.npDiff x)[i]? = match x[i]?, x[i + 1]? with | some a, some b => some (b - a) | _, _ => none := by
  unfold TimeSeries.npDiff
  rw [List.getElem?_zipWith, List.getElem?_tail]
  cases x[i]? <;> cases x[i + 1]? <;> rfl

theorem npDiff_length (x : List K) : (TimeSeries.npDiff x).length = x.length - 1 := by
  unfold TimeSeries.npDiff; simp

theorem diffN_length (k : Nat) (x : List K) : (diffN k x).length = x.length - k := by
  induction k generalizing x with
  | zero => simp [diffN]
  | succ k ih => rw [diffN, ih, npDiff_length]; omega

theorem diffN_getElem? (k : Nat) (x : List K) (i : Nat) (h : i + k < x.length) : (diffN k x)[i]? = some ((fwdDiff (1 : Nat))^[k] (fun j => x.getD j 0) i) := by
  induction k generalizing x with
  | zero =>
    simp only [diffN, Function.iterate_zero, id]
    rw [List.getElem?_eq_getElem (by omega), List.getD_eq_getElem?_getD, List.getElem?_eq_getElem (by omega)]; rfl
  | succ k ih =>
    rw [diffN, ih (TimeSeries.npDiff x) (by rw [npDiff_length]; omega), Function.iterate_succ, Function.comp]
    congr 1
    -- the two functions agree on the indices that matter
    have key : ∀ (m : Nat) (f g : Nat → K) (i : Nat), (∀ j, i ≤ j → j ≤ i + m → f j = g j) → (fwdDiff (1 : Nat))^[m] f i = (fwdDiff (1 : Nat))^[m] g i := by
      intro m f g i hfg
      rw [fwdDiff_iter_eq_sum_shift, fwdDiff_iter_eq_sum_shift]
      apply Finset.sum_congr rfl
      intro j hj
      rw [Finset.mem_range] at hj
      rw [hfg (i + j • 1) (by simp) (by simp; omega)]
    apply key
    intro j h1 h2
    rw [fwdDiff, List.getD_eq_getElem?_getD, npDiff_getElem?, List.getD_eq_getElem?_getD, List.getD_eq_getElem?_getD,
      List.getElem?_eq_getElem (show j < x.length by omega), List.getElem?_eq_getElem (show j + 1 < x.length by omega)]
    rfl

/-- **C78.** `Derivative(order=k)` for `1 ≤ k < n_bins` maps each channel to its `n_bins - k` forward differences of order `k`: value `i` is the alternating binomial sum
of the values `i, …, i + k` of the channel. The number of jobs does not matter. -/
theorem C78_derivative (k nJobs nBins : Nat) (hk : 1 ≤ k) (hb : k < nBins) (hj : 1 ≤ nJobs) (X : List (List (List K))) (hX : ∀ c ∈ X, ∀ x ∈ c, x.length = nBins) :
    ∃ Y, derivativeTransform (k : Int) nJobs nBins X = .ok Y ∧ Y.length = X.length ∧
      ∀ (s : Nat) c, X[s]? = some c → ∃ d, Y[s]? = some d ∧ d.length = c.length ∧
        ∀ (j : Nat) x, c[j]? = some x → ∃ y, d[j]? = some y ∧ y.length = nBins - k ∧
          ∀ i, i + k < nBins → y[i]? = some (∑ m ∈ Finset.range (k + 1), ((-1 : ℤ) ^ (k - m) * k.choose m) • x.getD (i + m) 0) := by
  refine ⟨X.map fun c => c.map (diffN k), ?_, by simp, ?_⟩
  · unfold derivativeTransform derivativeFit
    rw [if_neg (by omega), if_neg (by omega), C17_njobs_map _ nJobs hj]
    simp [bind, Except.bind, pure, Except.pure]
  · intro s c hc
    refine ⟨c.map (diffN k), by simp [hc], by simp, ?_⟩
    intro j x hx
    have hl : x.length = nBins := hX c (List.mem_of_getElem? hc) x (List.mem_of_getElem? hx)
    refine ⟨diffN k x, by simp [hx], by rw [diffN_length, hl], ?_⟩
    intro i hi
    rw [diffN_getElem? k x i (by omega), fwdDiff_iter_eq_sum_shift]
    simp

/-- Orders below one, and orders not less than the number of bins, are rejected. -/
theorem C78_rejected (order : Int) (nJobs nBins : Nat) (h : order < 1 ∨ (nBins : Int) ≤ order) (X : List (List (List K))) :
    derivativeTransform order nJobs nBins X = .error .valueError := by
  unfold derivativeTransform derivativeFit
  by_cases h1 : order < 1
  · rw [if_pos h1]; rfl
  · rw [if_neg h1, if_pos (by tauto)]; rfl

theorem npDiff_diffN (k : Nat) (x : List K) : TimeSeries.npDiff (diffN k x) = diffN k (TimeSeries.npDiff x) := by
  induction k generalizing x with
  | zero => rfl
  | succ k ih => rw [diffN, ih, diffN]

theorem diffN_add (j k : Nat) (x : List K) : diffN j (diffN k x) = diffN (j + k) x := by
  induction j generalizing x with
  | zero => simp [diffN]
  | succ j ih =>
    rw [diffN, npDiff_diffN, ih, show j + 1 + k = (j + k) + 1 by omega, diffN]

/-- **C78.** Order `k` followed by order `j` is order `j + k`. -/
theorem C78_compose (j k nJobs nBins : Nat) (hj : 1 ≤ j) (hk : 1 ≤ k) (hb : j + k < nBins) (hn : 1 ≤ nJobs) (X Y : List (List (List K)))
    (hY : derivativeTransform (k : Int) nJobs nBins X = .ok Y) :
    derivativeTransform (j : Int) nJobs (nBins - k) Y = derivativeTransform ((j + k : Nat) : Int) nJobs nBins X := by
  unfold derivativeTransform derivativeFit at *
  rw [if_neg (by omega), if_neg (by omega), C17_njobs_map _ nJobs hn] at hY
  have hY' : Y = X.map fun c => c.map (diffN k) := by
    simpa [bind, Except.bind, pure, Except.pure] using hY.symm
  subst hY'
  rw [if_neg (by omega), if_neg (by omega), if_neg (by omega), if_neg (by omega), C17_njobs_map _ nJobs hn, C17_njobs_map _ nJobs hn]
  show Except.ok _ = Except.ok _
  rw [List.map_map]
  congr 2
  funext c
  simp only [Function.comp, List.map_map]
  congr 1
  funext x
  exact diffN_add j k x

theorem diffN_linear (k : Nat) (a b : K) (x y : List K) (h : x.length = y.length) :
    diffN k (List.zipWith (fun u v => a * u + b * v) x y) = List.zipWith (fun u v => a * u + b * v) (diffN k x) (diffN k y) := by
  induction k generalizing x y with
  | zero => rfl
  | succ k ih =>
    rw [diffN, diffN, diffN, ← ih _ _ (by rw [npDiff_length, npDiff_length, h])]
    congr 1
    apply List.ext_getElem?
    intro i
    rw [npDiff_getElem?, List.getElem?_zipWith, List.getElem?_zipWith, List.getElem?_zipWith, npDiff_getElem?, npDiff_getElem?]
    by_cases hi : i + 1 < x.length
    · rw [List.getElem?_eq_getElem (show i < x.length by omega), List.getElem?_eq_getElem hi, List.getElem?_eq_getElem (show i < y.length by omega),
        List.getElem?_eq_getElem (show i + 1 < y.length by omega)]
      simp only [Option.some.injEq]
      ring
    · rw [List.getElem?_eq_none (show x.length ≤ i + 1 by omega)]
      cases x[i]? <;> cases y[i]? <;> rfl

/-- **C78.** `Derivative` is linear on collections of curves with the same number of bins: the derivative of `a X + b X'` is `a` times the derivative of `X` plus `b` times that of `X'`. -/
theorem C78_linear (k nJobs nBins : Nat) (hk : 1 ≤ k) (hb : k < nBins) (hn : 1 ≤ nJobs) (a b : K) (X X' Y Y' : List (List (List K))) (hX : ∀ c ∈ X, ∀ x ∈ c, x.length = nBins)
    (hX' : ∀ c ∈ X', ∀ x ∈ c, x.length = nBins) (hY : derivativeTransform (k : Int) nJobs nBins X = .ok Y) (hY' : derivativeTransform (k : Int) nJobs nBins X' = .ok Y') :
    derivativeTransform (k : Int) nJobs nBins (List.zipWith (List.zipWith (List.zipWith fun u v => a * u + b * v)) X X') =
      .ok (List.zipWith (List.zipWith (List.zipWith fun u v => a * u + b * v)) Y Y') := by
  have hd : ∀ X : List (List (List K)), derivativeTransform (k : Int) nJobs nBins X = .ok (X.map fun c => c.map (diffN k)) := by
    intro X
    unfold derivativeTransform derivativeFit
    rw [if_neg (by omega), if_neg (by omega), C17_njobs_map _ nJobs hn]
    simp [bind, Except.bind, pure, Except.pure]
  rw [hd] at hY hY' ⊢
  cases hY
  cases hY'
  congr 1
  have hc : ∀ c c' : List (List K), (∀ x ∈ c, x.length = nBins) → (∀ x ∈ c', x.length = nBins) →
      (List.zipWith (List.zipWith fun u v => a * u + b * v) c c').map (diffN k) = List.zipWith (List.zipWith fun u v => a * u + b * v) (c.map (diffN k)) (c'.map (diffN k)) := by
    intro c
    induction c with
    | nil => intros; rfl
    | cons x c ih =>
      intro c' h1 h2
      cases c' with
      | nil => rfl
      | cons x' c' =>
        simp only [List.zipWith_cons_cons, List.map_cons]
        rw [diffN_linear k a b x x' (by rw [h1 x List.mem_cons_self, h2 x' List.mem_cons_self]),
          ih c' (fun y hy => h1 y (List.mem_cons_of_mem _ hy)) fun y hy => h2 y (List.mem_cons_of_mem _ hy)]
  induction X generalizing X' with
  | nil => rfl
  | cons c X ih =>
    cases X' with
    | nil => rfl
    | cons c' X' =>
      simp only [List.zipWith_cons_cons, List.map_cons]
      rw [hc c c' (hX c List.mem_cons_self) (hX' c' List.mem_cons_self), ih X' (fun y hy => hX y (List.mem_cons_of_mem _ hy)) fun y hy => hX' y (List.mem_cons_of_mem _ hy)]

/-- Two collections of one sample with one channel. -/
example : derivativeTransform (K := ℚ) 1 2 3 [[[1, 4, 9]]] = .ok [[[3, 5]]] ∧ derivativeTransform (K := ℚ) 1 2 3 [[[0, 1, 0]]] = .ok [[[1, -1]]] ∧
    derivativeTransform (K := ℚ) 1 2 3 [[[2, 11, 18]]] = .ok [[[9, 7]]] := by refine ⟨?_, ?_, ?_⟩ <;> decide +kernel

end

/-- Non-vacuity of C78: second differences of a sequence of squares. -/
example : derivativeTransform (2 : Int) 3 5 [[[0, 1, 4, 9, 16]], [[(1 : ℚ), 1, 1, 1, 2]]] = .ok [[[2, 2, 2]], [[0, 0, 1]]] := by decide +kernel

/-! ### C79 -/

section
variable {K : Type} (np : String → Kwargs → List K → PyM K)

theorem callChannel_ok (f : FnSpec K) (q : Kwargs) (x l : List K) (h : HasValue np f q x l) (hi : f ≠ .str "identity") :
    ∃ o, callChannel np f q x = .ok o ∧ ravel o = l ∧ f.notNone = true := by
  cases h with
  | str s _ _ y h =>
    have : s ≠ "identity" := by rintro rfl; exact hi rfl
    refine ⟨.scalar y, ?_, rfl, rfl⟩
    unfold callChannel
    simp only [this, if_false, h]
    rfl
  | scalar g _ _ y h => exact ⟨.scalar y, h, rfl, rfl⟩
  | vec g _ _ l h => exact ⟨.vec l, h, rfl, rfl⟩

/-- The tasks of one sample. -/
theorem row_tasks (fs : List (FnSpec K × Kwargs)) (c : List (List K)) (row : List K) (h : IsRow np fs c row) (hi : ∀ p ∈ fs, p.1 ≠ .str "identity") :
    ∃ outs, (((fs.zip c).filter fun p => p.1.1.notNone).mapM fun p => callChannel np p.1.1 p.1.2 p.2) = .ok outs ∧ outs.flatMap ravel = row := by
  induction h with
  | nil => exact ⟨[], rfl, rfl⟩
  | skip q fs x c row _ ih =>
    obtain ⟨outs, h1, h2⟩ := ih fun p hp => hi p (by simp [hp])
    refine ⟨outs, ?_, h2⟩
    rw [List.zip_cons_cons, List.filter_cons_of_neg (by simp [FnSpec.notNone])]
    exact h1
  | cons f q fs x c l row hv _ ih =>
    obtain ⟨outs, h1, h2⟩ := ih fun p hp => hi p (by simp [hp])
    obtain ⟨o, h3, h4, h5⟩ := callChannel_ok np f q x l hv (hi (f, q) (by simp))
    refine ⟨o :: outs, ?_, by simp [h4, h2]⟩
    rw [List.zip_cons_cons, List.filter_cons_of_pos (by simpa using h5), List.mapM_cons, h3]
    rw [ok_bind, h1]; rfl

theorem all_tasks (fs : List (FnSpec K × Kwargs)) (X : List (List (List K))) (rows : List (List K)) (h : List.Forall₂ (IsRow np fs) X rows) (hi : ∀ p ∈ fs, p.1 ≠ .str "identity") :
    ∃ outs, ((featureTasks np fs X).mapM fun t => t ()) = .ok outs ∧ outs.flatMap ravel = rows.flatten := by
  induction h with
  | nil => exact ⟨[], rfl, rfl⟩
  | @cons c row X rows h _ ih =>
    obtain ⟨outs, h1, h2⟩ := ih
    obtain ⟨o, h3, h4⟩ := row_tasks np fs c row h hi
    refine ⟨o ++ outs, ?_, by simp [h2, h4]⟩
    unfold featureTasks at *
    rw [List.flatMap_cons, List.mapM_append, List.mapM_map]
    have : (((fs.zip c).filter fun p => p.1.1.notNone).mapM fun p => callChannel np p.1.1 p.1.2 p.2) =
      (((fs.zip c).filter fun p => p.1.1.notNone).mapM ((fun t : Unit → PyM (Out K) => t ()) ∘ fun p _ => callChannel np p.1.1 p.1.2 p.2)) := rfl
    rw [← this, h3]
    rw [ok_bind, h1]; rfl

/-- Featurisation with one function for each channel. -/
theorem featurize_ok (fs : List (FnSpec K × Kwargs)) (X : List (List (List K))) (hX : X ≠ []) (rows : List (List K)) (h : List.Forall₂ (IsRow np fs) X rows)
    (hi : ∀ p ∈ fs, p.1 ≠ .str "identity") (L : Nat) (hL : ∀ row ∈ rows, row.length = L) (order : List Nat) (horder : ∀ i, i < (featureTasks np fs X).length → i ∈ order) :
    featurize np order X (.channels fs) = .ok rows := by
  obtain ⟨outs, h1, h2⟩ := all_tasks np fs X rows h hi
  unfold featurize
  simp only
  rw [scheduled_ok _ _ horder, h1]
  show Diagrams.reshape2 X.length ((outs.flatMap ravel).length / X.length) (outs.flatMap ravel) = .ok rows
  rw [h2, h.length_eq, length_flatten_uniform rows L hL, Nat.mul_div_cancel_left _ (by rw [← h.length_eq]; exact List.length_pos_iff.2 hX)]
  exact Diagrams.reshape2_flatten rows L hL

theorem checkEntries (fs : List (FnSpec K)) (h1 : ∀ f ∈ fs, ∀ s, f = .str s → s ∈ available) (h2 : ∀ f ∈ fs, f ≠ .other) :
    validateEntries fs = .ok () := by
  unfold validateEntries
  cases hr : fs.forM checkEntry with
  | ok u => rfl
  | error e =>
    obtain ⟨f, hf, he⟩ := forM_error _ _ _ hr
    have hev : e = .valueError := by
      cases f with
      | str s =>
        have : checkEntry (.str s : FnSpec K) = .ok () := if_pos (h1 _ hf s rfl)
        rw [this] at he; cases he
      | fn g => cases he; rfl
      | none => cases he
      | other => exact absurd rfl (h2 _ hf)
    subst hev
    show (fs.filter FnSpec.isStr).forM checkEntry = .ok ()
    rw [forM_ok_iff]
    intro g hg
    rw [List.mem_filter] at hg
    cases g with
    | str s => exact if_pos (h1 _ hg.1 s rfl)
    | fn _ => cases hg.2
    | none => cases hg.2
    | other => cases hg.2

theorem available_eq : available = curveFunctions := rfl

theorem accepts_iff (s : String) (q : Kwargs) : validateParams q (paramRefs s) [] = .ok () ↔ Accepts s q := by
  unfold validateParams
  rw [forM_ok_iff]
  simp only [List.contains_nil, Bool.not_false, List.filter_true]
  unfold Accepts
  apply forall_congr'
  rintro ⟨a, v⟩
  apply imp_congr_right
  intro _
  dsimp only
  unfold paramRefs
  by_cases h : s = "average"
  · simp only [h, if_true, true_and]
    rw [checkNamed]
    by_cases ha : "weights" = a
    · rw [if_pos ha]
      constructor
      · intro hc
        refine ⟨ha.symm, ?_⟩
        cases v <;> first | exact ⟨_, rfl⟩ | (exfalso; revert hc; simp [checkParam, single, typeOk, isinstanceSpec, isinstance, bind, Except.bind])
      · rintro ⟨-, l, rfl⟩
        rfl
    · rw [if_neg ha]
      constructor
      · intro hc
        rw [checkNamed] at hc
        cases hc
      · rintro ⟨e, -⟩
        exact absurd e.symm ha
  · simp only [h, if_false, false_and, iff_false]
    rw [checkNamed]
    intro hc
    cases hc

theorem featureTasks_le (fs : List (FnSpec K × Kwargs)) (X : List (List (List K))) : (featureTasks np fs X).length ≤ X.length * fs.length := by
  unfold featureTasks
  induction X with
  | nil => simp
  | cons c X ih =>
    rw [List.flatMap_cons, List.length_append, List.length_map, List.length_cons, Nat.succ_mul, Nat.add_comm]
    refine Nat.add_le_add ih ((List.length_filter_le _ _).trans ?_)
    rw [List.length_zip]
    exact Nat.min_le_left _ _

/-- **C79.** `function` a list with one entry for each channel (available strings except "identity", functions, `None`), `function_params` absent or a list of admissible
keyword arguments, with no `None` beside a string. If the functions have values on all channels and the concatenated values of each curve have the same number `L` of
entries, the result has one row for each curve, the concatenation in the order of channels of the values of the functions that are not `None`, whatever the
order in which the parallel jobs run. Missing: see the four refutations below. -/
theorem C79_list_partial (order : List Nat) (fs : List (FnSpec K)) (n : Nat) (hn : fs.length = n) (p : ParamsParam) (hp : p = .none ∨ ∃ ps, p = .many ps ∧ ps.length = n)
    (hav : ∀ f ∈ fs, ∀ s, f = .str s → s ∈ curveFunctions ∧ s ≠ "identity") (hoth : ∀ f ∈ fs, f ≠ .other)
    (hpar : ∀ ps, p = .many ps → ∀ (j : Nat) s, fs[j]? = some (.str s) → ∃ q, ps[j]? = some (some q) ∧ Accepts s q)
    (X : List (List (List K))) (hX : X ≠ []) (rows : List (List K)) (hrows : List.Forall₂ (IsRow np (fs.zip (channelKwargs n p))) X rows)
    (L : Nat) (hL : ∀ row ∈ rows, row.length = L) (horder : ∀ i, i < X.length * n → i ∈ order) :
    featuresFitTransform np order (.many fs) p n X = .ok rows := by
  have hval : validateFunction (.many fs) p = .ok () := by
    have : validateFunctionType (.many fs) = .ok () := checkEntries fs (fun f hf s hs => (hav f hf s hs).1) hoth
    unfold validateFunction
    rw [this]
    rcases hp with rfl | ⟨ps, rfl, -⟩ <;> rfl
  have hfit : featuresFit (.many fs) p n = .ok (.channels (fs.zip (channelKwargs n p))) := by
    unfold featuresFit
    rw [hval]
    rw [ok_bind]
    simp only
    rw [if_neg (by simpa using hn)]
    have hmap : ∀ (fs : List (FnSpec K)) (ps : List (Option Kwargs)),
        (∀ (j : Nat) s, fs[j]? = some (.str s) → j < ps.length → ∃ q, ps[j]? = some (some q) ∧ Accepts s q) →
        ((fs.zip ps).mapM fun q => channelParams q.1 q.2) = .ok (fs.zip (ps.map fun p => p.getD [])) := by
      intro fs
      induction fs with
      | nil => intro ps _; rfl
      | cons f t ih =>
        intro ps h
        cases ps with
        | nil => rfl
        | cons o ps =>
          rw [List.zip_cons_cons, List.mapM_cons]
          have h1 : channelParams f o = .ok (f, o.getD []) := by
            cases f with
            | str s =>
              obtain ⟨q, hq1, hq2⟩ := h 0 s (by simp) (by simp)
              have : o = some q := by simpa using hq1
              subst this
              unfold channelParams
              simp only [(accepts_iff s q).2 hq2]
              rfl
            | fn g => rfl
            | none => rfl
            | other => rfl
          have h2 := ih ps fun j s hj hlt => by
            have := h (j + 1) s (by simpa using hj) (by simpa using hlt)
            simpa using this
          simp only [h1]
          rw [ok_bind, h2]; rfl
    rcases hp with rfl | ⟨ps, rfl, hl⟩
    · have : paramsList .none n = .ok (List.replicate n (some [])) := rfl
      rw [this, ok_bind, hmap]
      · simp [channelKwargs, bind, Except.bind, pure, Except.pure]
      · intro j s hj hlt
        refine ⟨[], ?_, by simp [Accepts]⟩
        rw [List.length_replicate] at hlt
        rw [List.getElem?_replicate, if_pos hlt]
    · have : paramsList (.many ps) n = .ok ps := if_neg (by simpa using hl)
      rw [this, ok_bind, hmap]
      · rfl
      · intro j s hj _
        exact hpar ps rfl j s hj
  unfold featuresFitTransform
  rw [hfit]
  show featurize np order X (.channels _) = _
  apply featurize_ok np _ X hX rows hrows _ L hL order fun i hi => horder i (lt_of_lt_of_le hi ((featureTasks_le np _ X).trans (Nat.mul_le_mul_left _ (by rw [List.length_zip, hn]; exact Nat.min_le_left _ _))))
  intro q hq heq
  exact (hav q.1 (List.of_mem_zip hq).1 "identity" heq).2 rfl

/-- **C79.** A single function for all channels. -/
theorem C79_callable (order : List Nat) (g : FnVal K) (n : Nat) (q : Kwargs) (X : List (List (List K))) (hX : X ≠ []) (rows : List (List K))
    (hrows : List.Forall₂ (IsRow np (List.replicate n (.fn g, q))) X rows) (L : Nat) (hL : ∀ row ∈ rows, row.length = L)
    (horder : ∀ i, i < X.length * n → i ∈ order) :
    featuresFitTransform np order (.one (.fn g)) (.dict q) n X = .ok rows := by
  show featurize np order X (.channels (List.replicate n (.fn g, q))) = _
  apply featurize_ok np _ X hX rows hrows _ L hL order fun i hi => horder i (lt_of_lt_of_le hi ((featureTasks_le np _ X).trans (by simp)))
  intro p hp
  rw [List.eq_of_mem_replicate hp]
  simp

/-- **C79.** A string for all channels: "identity" gives the concatenation of the channels, every other available string the values of the named function with the given arguments
on the channels, in order. -/
theorem C79_string (order : List Nat) (s : String) (hs : s ∈ curveFunctions) (n : Nat) (p : ParamsParam) (q : Kwargs)
    (hp : (p = .none ∧ q = []) ∨ p = .dict q) (hq : Accepts s q) (X : List (List (List K))) (rows : List (List K)) :
    (s = "identity" → featuresFitTransform np order (.one (.str s)) p n X = .ok (X.map List.flatten)) ∧
    (s ≠ "identity" → List.Forall₂ (fun c row => List.Forall₂ (fun x y => np s q x = .ok y) c row) X rows →
      featuresFitTransform np order (.one (.str s)) p n X = .ok rows) := by
  have hfit : featuresFit (.one (.str s) : FunctionParam K) p n = .ok (.single s q) := by
    have : validateFunctionType (.one (.str s) : FunctionParam K) = .ok () := if_pos hs
    unfold featuresFit validateFunction
    rw [this]
    rcases hp with ⟨rfl, rfl⟩ | rfl
    · rfl
    · show (validateParams q (paramRefs s) [] >>= _) = _
      rw [(accepts_iff s q).2 hq]
      rfl
  unfold featuresFitTransform
  rw [hfit]
  constructor
  · intro h
    show featurize np order X (.single s q) = _
    unfold featurize
    simp only
    rw [if_pos h]
  · intro h hr
    show featurize np order X (.single s q) = _
    unfold featurize
    simp only
    rw [if_neg h]
    have inner : ∀ (c : List (List K)) row, List.Forall₂ (fun x y => np s q x = .ok y) c row → c.mapM (np s q) = .ok row := by
      intro c row hc
      induction hc with
      | nil => rfl
      | cons h1 _ ih => rw [List.mapM_cons, h1, ok_bind, ih]; rfl
    induction hr with
    | nil => rfl
    | cons h1 _ ih => rw [List.mapM_cons, inner _ _ h1, ok_bind, ih]; rfl

/-- **C79.** Lists of functions or of parameters that do not have one entry per channel are refused with a `ValueError` (strings being available ones, other entries functions or
`None`). -/
theorem C79_wrong_length (order : List Nat) (fs : List (FnSpec K)) (n : Nat) (p : ParamsParam) (hp : ∀ q, p ≠ .dict q)
    (hav : ∀ f ∈ fs, ∀ s, f = .str s → s ∈ curveFunctions) (hoth : ∀ f ∈ fs, f ≠ .other)
    (h : fs.length ≠ n ∨ ∃ ps, p = .many ps ∧ ps.length ≠ n) (X : List (List (List K))) :
    featuresFitTransform np order (.many fs) p n X = .error .valueError := by
  have hval : validateFunction (.many fs) p = .ok () := by
    have : validateFunctionType (.many fs) = .ok () := checkEntries fs hav hoth
    unfold validateFunction
    rw [this]
    cases p with
    | dict q => exact absurd rfl (hp q)
    | none => rfl
    | many ps => rfl
  unfold featuresFitTransform featuresFit
  rw [hval, ok_bind]
  by_cases hn : fs.length ≠ n
  · simp only
    rw [if_pos hn]; rfl
  · rcases h with h | ⟨ps, rfl, h⟩
    · exact absurd h hn
    · simp only
      rw [if_neg hn]
      unfold paramsList
      simp only
      rw [if_pos h]; rfl

end

/-- **C79**, parameters which are refused: names which are not documented with a `ValueError`; a list of parameters for one function, a dictionary of parameters for a list of functions, and `None` or other objects
in place of a function with a `TypeError`; arguments which the named function does not accept. -/
theorem C79_refused {K : Type} (np : String → Kwargs → List K → PyM K) (order : List Nat) (n : Nat) (X : List (List (List K))) :
    (∀ s p, s ∉ curveFunctions → featuresFitTransform np order (.one (.str s)) p n X = .error .valueError) ∧
    (∀ s ps, s ∈ curveFunctions → featuresFitTransform np order (.one (.str s)) (.many ps) n X = .error .typeError) ∧
    (∀ g ps, featuresFitTransform np order (.one (.fn g)) (.many ps) n X = .error .typeError) ∧
    (∀ p, featuresFitTransform np order (.one .none) p n X = .error .typeError ∧ featuresFitTransform np order (.one .other) p n X = .error .typeError) ∧
    (∀ fs q, (∀ f ∈ fs, ∀ s, f = .str s → s ∈ curveFunctions) → (∀ f ∈ fs, f ≠ .other) → featuresFitTransform np order (.many fs) (.dict q) n X = .error .typeError) ∧
    (∀ s q, s ∈ curveFunctions → ¬ Accepts s q → ∃ e, featuresFitTransform np order (.one (.str s)) (.dict q) n X = .error e) := by
  have h0 : ∀ s, s ∈ curveFunctions → validateFunctionType (.one (.str s) : FunctionParam K) = .ok () := fun s hs => if_pos hs
  refine ⟨?_, ?_, fun _ _ => rfl, fun _ => ⟨rfl, rfl⟩, ?_, ?_⟩
  · intro s p hs
    have : validateFunctionType (.one (.str s) : FunctionParam K) = .error .valueError := if_neg hs
    unfold featuresFitTransform featuresFit validateFunction
    rw [this]
    rfl
  · intro s ps hs
    unfold featuresFitTransform featuresFit validateFunction
    rw [h0 s hs]
    rfl
  · intro fs q h1 h2
    have : validateFunctionType (.many fs) = .ok () := checkEntries fs h1 h2
    unfold featuresFitTransform featuresFit validateFunction
    rw [this]
    rfl
  · intro s q hs hq
    unfold featuresFitTransform featuresFit validateFunction
    rw [h0 s hs]
    cases hv : validateParams q (paramRefs s) [] with
    | ok u => exact absurd ((accepts_iff s q).1 hv) hq
    | error e =>
      refine ⟨e, ?_⟩
      simp only [ok_bind]
      rw [hv]
      rfl

/-- NumPy's `max` and `argmax`-like stand-in for the examples: the sum of the channel. -/
def npExample : String → Kwargs → List ℚ → PyM ℚ := fun _ _ x => .ok x.sum

/-- Non-vacuity of C79: a string, a function with two values and `None`, jobs executed in another order. -/
example : featuresFitTransform npExample [3, 1, 0, 2] (.many [.str "max", .none, .fn fun _ x => .ok (.vec (x.take 2))]) .none 3 [[[1, 2], [3, 4], [5, 6]], [[7, 8], [9, 10], [11, 12]]] =
    .ok [[3, 5, 6], [15, 11, 12]] := by decide +kernel
example : IsRow npExample [(.str "max", []), (.none, []), (.fn fun _ x => .ok (.vec (x.take 2)), [])] [[1, 2], [3, 4], [5, 6]] ([1 + (2 + 0)] ++ ([5, 6] ++ [])) :=
  .cons _ _ _ _ _ _ _ (.str _ _ _ _ rfl) (.skip _ _ _ _ _ (.cons _ _ _ _ _ _ _ (.vec _ _ _ _ rfl) .nil))

example : Accepts "average" [("weights", .ndarray [.int 1])] ∧ ¬ Accepts "max" [("weights", .ndarray [.int 1])] ∧ "variance" ∉ curveFunctions := by
  refine ⟨by simp [Accepts], by simp [Accepts], by decide⟩

/-- **C79, false: "identity" in a list.** It raises a `TypeError`, for all data. -/
theorem C79_refuted_identity_in_list {K : Type} (np : String → Kwargs → List K → PyM K) (x : List K) :
    featuresFitTransform np [0] (.many [.str "identity"]) .none 1 [[x]] = .error .typeError := by
  rfl

/-- **C79, false: `None` in `function_params`.** Documented as "no arguments", it raises an `AttributeError` beside a string. -/
theorem C79_refuted_none_params : featuresFitTransform npExample [0] (.many [.str "max"]) (.many [none]) 1 [[[1, 2]]] = .error .attributeError := by decide +kernel

/-- **C79, false: weights `None`.** Documented as the default value of "weights", it raises a `TypeError`. -/
theorem C79_refuted_weights_none : featuresFitTransform npExample [0] (.one (.str "average")) (.dict [("weights", .none)]) 1 [[[1, 2]]] = .error .typeError := by decide +kernel

/-- **C79, false: functions with numbers of values that depend on the data.** Values of one curve appear in the row of another, without an exception: the function returns the positive
entries; row 0 contains a value of curve 1. -/
theorem C79_refuted_rows_mixed :
    featuresFitTransform npExample [0, 1] (.one (.fn fun _ x => .ok (.vec (x.filter fun a => decide (0 < a))))) .none 1 [[[1, -2, -3]], [[4, 5, 6]]] = .ok [[1, 4], [5, 6]] := by
  decide +kernel

/-- **C79, validation.** An entry of a type that is not allowed is found at once in a list of strings, but passes `fit` when a function precedes it. -/
theorem C79_refuted_entry_types (f : FnVal ℚ) :
    featuresFit (.many [.str "max", .other]) .none 2 = (.error .typeError : PyM (Effective ℚ)) ∧ ∃ e, featuresFit (.many [.fn f, .other]) .none 2 = .ok e :=
  ⟨rfl, _, rfl⟩

end Gtda.Props
