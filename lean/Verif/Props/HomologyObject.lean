import Verif.Spec.HomologyObject
import Verif.Props.Persistence

set_option autoImplicit false
set_option linter.unusedSectionVars false

/-!
# C116: the persistent homology transformers as fitted objects
-/

namespace Gtda.Props.HomologyObject
open Gtda.Py Gtda.Parallel Gtda.Diagrams Gtda.Persistence Gtda.Spec Gtda.Validation Gtda.HomologyObject Gtda.Spec.HomologyObject

section
variable {V S A : Type}

theorem weightStep_ok (P : HParams V A) (h : (weightStep P).2 = .ok ()) : ∃ w, effectiveWeightParams P.weights P.weightParams = .ok w ∧ (weightStep P).1 = some w := by
  unfold weightStep effectiveWeightParams at *
  cases hw : P.weights with
  | str s =>
    rw [hw] at h
    dsimp only at h ⊢
    split at h
    · cases h
    · next hs =>
      rw [if_neg hs, if_neg hs]
      split at h
      · next he => rw [if_pos he, if_pos he]; exact ⟨_, rfl, rfl⟩
      · next he =>
        rw [if_neg he, if_neg he]
        dsimp only at h
        rw [h]
        exact ⟨_, rfl, rfl⟩
  | fn =>
    rw [hw] at h
    dsimp only at h ⊢
    split at h
    · next he => rw [if_pos he, if_pos he]; exact ⟨_, rfl, rfl⟩
    · next he =>
      rw [if_neg he, if_neg he]
      dsimp only at h
      rw [h]
      exact ⟨_, rfl, rfl⟩

theorem weightStep_of_ok (P : HParams V A) (w : List (String × PyVal)) (h : effectiveWeightParams P.weights P.weightParams = .ok w) : weightStep P = (some w, .ok ()) := by
  unfold weightStep effectiveWeightParams at *
  cases hw : P.weights with
  | str s =>
    rw [hw] at h
    dsimp only at h ⊢
    split at h
    · cases h
    · next hs =>
      rw [if_neg hs]
      split at h
      · next he => rw [if_pos he]; cases h; rfl
      · next he =>
        rw [if_neg he]
        cases hv : validateParams (dictUpdate (dictUpdate [("p", .int 1)] [("n_neighbors", .int 3), ("r", .int 2)]) P.weightParams) (ripsWeightRefs true) [] with
        | error er => rw [hv] at h; cases h
        | ok u => rw [hv] at h; cases h; rfl
  | fn =>
    rw [hw] at h
    dsimp only at h ⊢
    split at h
    · next he => rw [if_pos he]; cases h; rfl
    · next he =>
      rw [if_neg he]
      cases hv : validateParams (dictUpdate [("p", .int 1)] P.weightParams) (ripsWeightRefs false) [] with
      | error er => rw [hv] at h; cases h
      | ok u => rw [hv] at h; cases h; rfl

/-- The attributes of a fitted transformer that `transform` reads. -/
structure Stored (k : Kind) (P : HParams V A) (v : V) (lo hi : Nat) (w : List (String × PyVal)) (e : HEst V A) : Prop where
  inf : e.inf = some v
  dims : e.dims = some (P.dims.insertionSort (· ≤ ·))
  maxDim : e.maxDim = some hi
  minDim : k = .flagser → e.minDim = some lo
  isPre : k = .rips ∨ k = .weighted ∨ k = .sparse → e.isPre = some P.precomputed
  eff : k = .weighted → e.eff = some w
  periodic : k = .cubical → e.periodic = some (if true ∈ P.periodic.getD [] then P.periodic else none)

theorem cubicalPeriodic_snd (n : Nat) (periodic : Option (List Bool)) : (cubicalPeriodic n periodic).2 = if true ∈ periodic.getD [] then periodic else none := by
  cases periodic with
  | none => simp [cubicalPeriodic]
  | some p =>
    unfold cubicalPeriodic
    simp only [Option.getD_some]
    by_cases h : true ∈ p
    · rw [if_neg, if_pos h]
      rw [List.length_eq_zero_iff, List.filter_eq_nil_iff]
      intro hall
      exact hall true h rfl
    · rw [if_pos, if_neg h]
      rw [List.length_eq_zero_iff, List.filter_eq_nil_iff]
      intro b hb hb'
      simp only [id] at hb'
      exact h (hb' ▸ hb)

theorem sort_ends (hd : List Nat) (lo hi : Nat) (hlo : IsSmallest hd lo) (hhi : IsLargest hd hi) :
    (hd.insertionSort (· ≤ ·)).head? = some lo ∧ (hd.insertionSort (· ≤ ·)).getLast? = some hi := by
  have h := fit_ok hd (none : Option Nat) 0 lo hi hlo hhi
  unfold fit at h
  simp only at h
  split at h
  · next a b ha hb =>
    cases h
    exact ⟨ha, hb⟩
  · cases h

theorem infinityValue_ok (E : Env V S A) (k : Kind) (X : List S) (P : HParams V A) (v : V) : infinityValue E k X P = .ok v ↔ IsInfinityValue E k P X v := by
  unfold infinityValue IsInfinityValue
  cases P.inf with
  | some w => simp [eq_comm]
  | none =>
    dsimp only
    split
    · exact Iff.rfl
    · simp [eq_comm]

/-- What a fit needs. -/
structure Accepted (E : Env V S A) (k : Kind) (P : HParams V A) (X : List S) : Prop where
  params : E.validate k P = .ok ()
  data : E.check k (wantsMatrices k P) X = .ok ()

theorem precheck_iff (E : Env V S A) (k : Kind) (X : List S) (P : HParams V A) :
    precheck E k X P = .ok () ↔ E.validate k P = .ok () ∧ (k ≠ .rips → k ≠ .weighted → k ≠ .sparse → E.check k (wantsMatrices k P) X = .ok ()) := by
  cases k <;> simp [precheck, wantsMatrices]
  · cases E.validate .weakAlpha P <;> simp [bind, Except.bind]
  · cases E.check .cech false X <;> simp [bind, Except.bind]
  · cases E.check .flagser true X <;> simp [bind, Except.bind]
  · cases E.check .cubical false X <;> simp [bind, Except.bind]

theorem prepare_iff (E : Env V S A) (k : Kind) (X : List S) (e : HEst V A) :
    (prepare E k X e).2 = .ok () ↔ (k = .rips ∨ k = .weighted ∨ k = .sparse → E.check k (wantsMatrices k e.params) X = .ok ()) ∧
      (k = .weighted → ∃ w, effectiveWeightParams e.params.weights e.params.weightParams = .ok w) := by
  cases k <;> simp [prepare, wantsMatrices]
  cases hw : (weightStep e.params).2 with
  | ok u =>
    obtain ⟨w, h1, h2⟩ := weightStep_ok e.params hw
    simp [h1]
  | error er =>
    simp only [reduceCtorEq, false_iff, not_and, not_exists]
    intro _ w h
    rw [weightStep_of_ok e.params w h] at hw
    cases hw

theorem prepare_fields (E : Env V S A) (k : Kind) (X : List S) (e : HEst V A) :
    (prepare E k X e).1.params = e.params ∧ (prepare E k X e).1.inf = e.inf ∧ (prepare E k X e).1.dims = e.dims ∧ (prepare E k X e).1.minDim = e.minDim ∧
      (prepare E k X e).1.maxDim = e.maxDim := by
  cases k <;> simp [prepare]
  cases (weightStep e.params).2 <;> simp

theorem prepare_stored (E : Env V S A) (k : Kind) (X : List S) (e : HEst V A) (h : (prepare E k X e).2 = .ok ()) :
    (k = .rips ∨ k = .weighted ∨ k = .sparse → (prepare E k X e).1.isPre = some e.params.precomputed) ∧
    (∀ w, k = .weighted → effectiveWeightParams e.params.weights e.params.weightParams = .ok w → (prepare E k X e).1.eff = some w) ∧
    (k = .cubical → (prepare E k X e).1.periodic = some (if true ∈ e.params.periodic.getD [] then e.params.periodic else none)) := by
  cases k <;> simp [prepare, cubicalPeriodic_snd]
  · obtain ⟨w, hw⟩ := ((prepare_iff E .weighted X e).1 h).2 rfl
    rw [weightStep_of_ok e.params w hw]
    refine ⟨rfl, fun w' hw' => ?_⟩
    rw [hw] at hw'
    cases hw'
    rfl

theorem hfit_params (E : Env V S A) (k : Kind) (X : List S) (e : HEst V A) : (hfit E k X e).1.params = e.params := by
  have hp := prepare_fields E k X e
  unfold hfit
  cases precheck E k X e.params with
  | error er => rfl
  | ok u =>
    dsimp only
    rcases hpr : prepare E k X e with ⟨e1, r⟩
    rw [hpr] at hp
    cases r with
    | error er => exact hp.1
    | ok u =>
      dsimp only
      cases infinityValue E k X e.params with
      | error er => exact hp.1
      | ok v =>
        dsimp only
        split
        · exact hp.1
        · exact hp.1

/-- A fit that succeeds. -/
theorem hfit_of (E : Env V S A) (k : Kind) (X : List S) (e : HEst V A) (lo hi : Nat) (hlo : IsSmallest e.params.dims lo) (hhi : IsLargest e.params.dims hi) (ha : Accepted E k e.params X)
    (w : List (String × PyVal)) (hw : k = .weighted → effectiveWeightParams e.params.weights e.params.weightParams = .ok w) (v : V) (hv : IsInfinityValue E k e.params X v) :
    (hfit E k X e).2 = .ok () ∧ Stored k e.params v lo hi w (hfit E k X e).1 := by
  have h1 : precheck E k X e.params = .ok () := (precheck_iff E k X e.params).2 ⟨ha.params, fun _ _ _ => ha.data⟩
  have h2 : (prepare E k X e).2 = .ok () := (prepare_iff E k X e).2 ⟨fun _ => ha.data, fun hk => ⟨w, hw hk⟩⟩
  have h3 := prepare_stored E k X e h2
  have h4 := (infinityValue_ok E k X e.params v).2 hv
  have h5 := sort_ends e.params.dims lo hi hlo hhi
  unfold hfit
  rw [h1]
  dsimp only
  rcases hpr : prepare E k X e with ⟨e1, r⟩
  rw [hpr] at h2 h3
  dsimp only at h2
  subst h2
  dsimp only
  rw [h4]
  dsimp only
  rw [h5.1, h5.2]
  exact ⟨rfl, rfl, rfl, rfl, fun hk => by subst hk; rfl, h3.1, fun hk => h3.2.1 w hk (hw hk), h3.2.2⟩

/-- What the success of a fit means. -/
theorem hfit_success (E : Env V S A) (k : Kind) (X : List S) (e : HEst V A) (h : (hfit E k X e).2 = .ok ()) :
    ∃ lo hi w v, IsSmallest e.params.dims lo ∧ IsLargest e.params.dims hi ∧ Accepted E k e.params X ∧
      (k = .weighted → effectiveWeightParams e.params.weights e.params.weightParams = .ok w) ∧ IsInfinityValue E k e.params X v := by
  unfold hfit at h
  cases hp : precheck E k X e.params with
  | error er => rw [hp] at h; cases h
  | ok u =>
    rw [hp] at h
    dsimp only at h
    have hp' := (precheck_iff E k X e.params).1 hp
    have hq := prepare_iff E k X e
    rcases hpr : prepare E k X e with ⟨e1, r⟩
    rw [hpr] at h hq
    cases r with
    | error er => cases h
    | ok u =>
      dsimp only at h hq
      have hq' := hq.1 rfl
      cases hi : infinityValue E k X e.params with
      | error er => rw [hi] at h; cases h
      | ok v =>
        rw [hi] at h
        dsimp only at h
        have hd : e.params.dims ≠ [] := by
          intro hd
          rw [hd] at h
          cases h
        obtain ⟨⟨lo, hlo⟩, hi', hhi⟩ := exists_extremes e.params.dims hd
        have hdata : E.check k (wantsMatrices k e.params) X = .ok () := by
          by_cases hk : k = .rips ∨ k = .weighted ∨ k = .sparse
          · exact hq'.1 hk
          · simp only [not_or] at hk
            exact hp'.2 hk.1 hk.2.1 hk.2.2
        by_cases hk : k = .weighted
        · obtain ⟨w, hw⟩ := hq'.2 hk
          exact ⟨lo, hi', w, v, hlo, hhi, ⟨hp'.1, hdata⟩, fun _ => hw, (infinityValue_ok E k X e.params v).1 hi⟩
        · exact ⟨lo, hi', [], v, hlo, hhi, ⟨hp'.1, hdata⟩, fun h => absurd h hk, (infinityValue_ok E k X e.params v).1 hi⟩

theorem maxOf_sorted (hd : List Nat) (hi : Nat) (hhi : IsLargest hd hi) : maxOf (hd.insertionSort (· ≤ ·)) = .ok hi := by
  have hp : (hd.insertionSort (· ≤ ·)).Perm hd := List.perm_insertionSort _ _
  cases hs : hd.insertionSort (· ≤ ·) with
  | nil =>
    have := hp.mem_iff.2 hhi.1
    rw [hs] at this
    cases this
  | cons a t =>
    have h := foldl_max_spec t a
    rw [← hs] at h
    show Except.ok _ = _
    congr 1
    exact le_antisymm (hhi.2 _ (hp.mem_iff.1 h.1)) (h.2 _ (hp.mem_iff.2 hhi.1))

theorem isFitted_stored (k : Kind) (P : HParams V A) (v : V) (lo hi : Nat) (w : List (String × PyVal)) (e : HEst V A) (h : Stored k P v lo hi w e) : isFitted k e = true := by
  cases k <;> simp [isFitted, h.inf]

/-- The arguments of the engine after a fit with parameters `P`, the present parameters being `e.params`. -/
theorem callOf_stored (k : Kind) (P : HParams V A) (v : V) (lo hi : Nat) (hhi : IsLargest P.dims hi) (w : List (String × PyVal)) (e : HEst V A) (h : Stored k P v lo hi w e)
    (hper : k = .cubical → e.params.periodic = P.periodic) : callOf k e = .ok (intendedCall k e.params lo hi w) := by
  cases k <;> simp only [callOf, h.maxDim, h.dims, getAttr, ok_bind, maxOf_sorted P.dims hi hhi]
  · rfl
  · rw [h.eff rfl]; rfl
  · rfl
  · rfl
  · rfl
  · rw [h.minDim rfl]; rfl
  · rw [h.periodic rfl]
    simp only [ok_bind, intendedCall, hper rfl, reduceCtorEq, if_false, if_true, or_self, true_and]

theorem flag_stored (k : Kind) (P : HParams V A) (v : V) (lo hi : Nat) (w : List (String × PyVal)) (e : HEst V A) (h : Stored k P v lo hi w e) :
    transformFlag k e = .ok (wantsMatrices k P) := by
  cases k <;> simp [transformFlag, wantsMatrices, h.isPre, getAttr]

theorem rawDiagram_stored [LinearOrder V] (E : Env V S A) (k : Kind) (e : HEst V A) (c : Call V A) (hc : callOf k e = .ok c) (lo hi : Nat) (hlo : k = .flagser → c.minDim = some lo)
    (hhi : k = .flagser → c.maxDim = some hi) (hd : List Nat) (hdlo : ∀ q ∈ hd, lo ≤ q) (hdhi : ∀ q ∈ hd, q ≤ hi) (y : S) (bars : Nat → List (Raw V × Raw V)) (hb : EngineBars E k c lo hi y bars) :
    ∃ D, rawDiagram E k e y = .ok D ∧ WellFormed (formatOf k) hd D ∧ ∀ q ∈ hd, rawBars D q = bars q ∧ ∀ l, withoutOne D l = leaveOut k l := by
  have dgm : ∀ l : List (List (Raw V × Raw V)), hi < l.length → (∀ q, q ≤ hi → l[q]? = some (bars q)) →
      WellFormed (V := V) .ripser hd (.byDim l) ∧ ∀ q ∈ hd, rawBars (.byDim l) q = bars q ∧ ∀ l', withoutOne (.byDim l) l' = l'.dropLast := by
    intro l h1 h2
    refine ⟨fun q hq => lt_of_le_of_lt (hdhi q hq) h1, fun q hq => ⟨?_, fun _ => rfl⟩⟩
    simp [rawBars, List.getD_eq_getElem?_getD, h2 q (hdhi q hq)]
  have prs : ∀ l : List (Nat × (Raw V × Raw V)), (∀ q, (l.filter fun p => decide (p.1 = q)).map Prod.snd = bars q) →
      WellFormed (V := V) .gudhi hd (.gudhi l) ∧ ∀ q ∈ hd, rawBars (.gudhi l) q = bars q ∧ ∀ l', withoutOne (.gudhi l) l' = l'.tail := by
    intro l h
    refine ⟨trivial, fun q _ => ⟨?_, fun _ => rfl⟩⟩
    rw [← h q]
    show List.filterMap _ l = _
    clear h
    induction l with
    | nil => rfl
    | cons a t ih =>
      rw [List.filterMap_cons, List.filter_cons, ih]
      by_cases h : a.1 = q <;> simp [h]
  unfold rawDiagram
  rw [hc, ok_bind]
  cases k with
  | rips | weighted | weakAlpha =>
    obtain ⟨l, h1, h2, h3⟩ := hb
    simp only [h1, ok_bind]
    exact ⟨_, rfl, dgm l h2 h3⟩
  | sparse | cech | cubical =>
    obtain ⟨l, h1, h2⟩ := hb
    simp only [h1, ok_bind]
    exact ⟨_, rfl, prs l h2⟩
  | flagser =>
    obtain ⟨l, h1, h2⟩ := hb
    simp only [h1, ok_bind]
    refine ⟨_, rfl, ?_⟩
    have key : ∀ q ∈ hd, (alignFlagser c l)[q]? = some (bars q) := by
      intro q hq
      have hq1 := hdlo q hq
      have hq2 := hdhi q hq
      have hg : ∀ m : Nat, lo + l.length + m = max (lo + l.length) (hi + 1) →
          (List.replicate lo [] ++ l ++ List.replicate m ([] : List (Raw V × Raw V)))[q]? = some (bars q) := by
        intro m hm
        rw [← h2 q hq1 hq2, List.append_assoc, List.getElem?_append_right (by simpa using hq1), List.length_replicate]
        by_cases hc : q - lo < l.length
        · rw [List.getElem?_append_left hc, List.getD_eq_getElem?_getD, List.getElem?_eq_getElem hc, Option.getD_some]
        · rw [List.getElem?_append_right (by omega), List.getElem?_replicate, if_pos (by omega), List.getD_eq_getElem?_getD, List.getElem?_eq_none (by omega), Option.getD_none]
      unfold alignFlagser
      simp only [hlo rfl, hhi rfl, Option.getD_some]
      split
      · next hm =>
        apply hg
        simp only [List.length_append, List.length_replicate] at hm ⊢
        omega
      · next hm =>
        have := hg 0 (by simp only [List.length_append, List.length_replicate] at hm; omega)
        rw [List.replicate_zero, List.append_nil] at this
        exact this
    refine ⟨fun q hq => (List.getElem?_eq_some_iff.1 (key q hq)).1, fun q hq => ⟨?_, fun _ => rfl⟩⟩
    simp [rawBars, List.getD_eq_getElem?_getD, key q hq]

/-- `transform` of an object with stored attributes. -/
theorem htransform_stored [LinearOrder V] (E : Env V S A) (k : Kind) (P : HParams V A) (v : V) (lo hi : Nat) (w : List (String × PyVal)) (e : HEst V A) (h : Stored k P v lo hi w e)
    (garbage : Nat → Nat → Pt V Nat) (order : List Nat) (Y : List S) (ho : Covers order Y) :
    htransform E k garbage order Y e = (do
      E.check k (wantsMatrices k P) Y
      let Xt ← Y.mapM fun y => rawDiagram E k e y
      postprocess (formatOf k) (P.dims.insertionSort (· ≤ ·)) v E.zero E.lowest e.params.reduced garbage Xt) := by
  unfold htransform
  rw [if_pos (isFitted_stored k P v lo hi w e h), flag_stored k P v lo hi w e h, ok_bind]
  cases E.check k (wantsMatrices k P) Y with
  | error er => rfl
  | ok u =>
    simp only [ok_bind]
    rw [scheduled_ok _ _ (by simpa [Covers] using ho), List.mapM_map]
    show ((Y.mapM fun y => rawDiagram E k e y) >>= _) = _
    rw [h.dims, h.inf]
    rfl

end

end Gtda.Props.HomologyObject

namespace Gtda.Props
open Gtda.Py Gtda.Parallel Gtda.Diagrams Gtda.Persistence Gtda.Spec Gtda.Validation Gtda.HomologyObject Gtda.Spec.HomologyObject Gtda.Props.HomologyObject

section
variable {V S A : Type}

/-- **C116.** `fit` succeeds exactly if the parameters and the data are accepted, at least one homology dimension is requested, the weight parameters are accepted, and a default for infinite deaths exists. -/
theorem C116_fit (E : Env V S A) (k : Kind) (X : List S) (e : HEst V A) :
    (hfit E k X e).2 = .ok () ↔ E.validate k e.params = .ok () ∧ E.check k (wantsMatrices k e.params) X = .ok () ∧ e.params.dims ≠ [] ∧
      (k = .weighted → ∃ w, effectiveWeightParams e.params.weights e.params.weightParams = .ok w) ∧ (k = .cubical → e.params.inf = none → ∃ m, E.largest X = .ok m) := by
  constructor
  · intro h
    obtain ⟨lo, hi, w, v, h1, h2, h3, h4, h5⟩ := hfit_success E k X e h
    refine ⟨h3.params, h3.data, ?_, fun hk => ⟨w, h4 hk⟩, ?_⟩
    · rintro hd
      have := h1.1
      rw [hd] at this
      cases this
    · intro hk hi
      rw [IsInfinityValue, hi] at h5
      exact ⟨v, by simpa [hk] using h5⟩
  · rintro ⟨h1, h2, h3, h4, h5⟩
    obtain ⟨⟨lo, hlo⟩, hi, hhi⟩ := exists_extremes e.params.dims h3
    have hw : ∃ w, k = .weighted → effectiveWeightParams e.params.weights e.params.weightParams = .ok w := by
      by_cases hk : k = .weighted
      · obtain ⟨w, hw⟩ := h4 hk; exact ⟨w, fun _ => hw⟩
      · exact ⟨[], fun h => absurd h hk⟩
    have hv : ∃ v, IsInfinityValue E k e.params X v := by
      unfold IsInfinityValue
      cases hi : e.params.inf with
      | some v => exact ⟨v, rfl⟩
      | none =>
        dsimp only
        by_cases hk : k = .cubical
        · obtain ⟨m, hm⟩ := h5 hk hi
          exact ⟨m, by simpa [hk] using hm⟩
        · exact ⟨e.params.maxEdge, by simp [hk]⟩
    obtain ⟨w, hw⟩ := hw
    obtain ⟨v, hv⟩ := hv
    exact (hfit_of E k X e lo hi hlo hhi ⟨h1, h2⟩ w hw v hv).1

variable [LinearOrder V]

/-- **C116.** What `fit` followed by `transform` returns: the engine is called for every sample with the parameters of the object, the largest (and smallest) requested dimension and the effective weight parameters;
the result has in every requested dimension exactly its nonempty bars, with infinite deaths replaced as documented, and points on the diagonal, whatever the order of execution. -/
theorem C116_transform (E : Env V S A) (k : Kind) (X : List S) (e : HEst V A) (hf : (hfit E k X e).2 = .ok ()) (hnd : e.params.dims.Nodup) (Y : List S) (hY : Y ≠ [])
    (hcheck : E.check k (wantsMatrices k e.params) Y = .ok ()) (lo hi : Nat) (hlo : IsSmallest e.params.dims lo) (hhi : IsLargest e.params.dims hi) (w : List (String × PyVal))
    (hw : k = .weighted → effectiveWeightParams e.params.weights e.params.weightParams = .ok w) (bars : S → Nat → List (Raw V × Raw V))
    (hb : ∀ y ∈ Y, EngineBars E k (intendedCall k e.params lo hi w) lo hi y (bars y)) (garbage : Nat → Nat → Pt V Nat) (order : List Nat) (ho : Covers order Y) :
    ∃ v R, IsInfinityValue E k e.params X v ∧ htransform E k garbage order Y (hfit E k X e).1 = .ok R ∧ Spec.HomologyObject.Diagrams E k e.params.dims v e.params.reduced bars Y R := by
  obtain ⟨lo', hi', w', v, h1, h2, h3, h4, h5⟩ := hfit_success E k X e hf
  obtain ⟨-, hs⟩ := hfit_of E k X e lo hi hlo hhi h3 w hw v h5
  have hpar := hfit_params E k X e
  have hcall := callOf_stored k e.params v lo hi hhi w _ hs (fun _ => by rw [hpar])
  rw [hpar] at hcall
  have hp : (e.params.dims.insertionSort (· ≤ ·)).Perm e.params.dims := List.perm_insertionSort _ _
  have hraw := fun y hy => rawDiagram_stored E k (hfit E k X e).1 _ hcall lo hi (fun hk => by simp [intendedCall, hk]) (fun hk => by simp [intendedCall, hk])
    (e.params.dims.insertionSort (· ≤ ·)) (fun q hq => hlo.2 q (hp.mem_iff.1 hq)) (fun q hq => hhi.2 q (hp.mem_iff.1 hq)) y (bars y) (hb y hy)
  set D : S → RawDiagram V := fun y => match rawDiagram E k (hfit E k X e).1 y with
    | .ok D => D
    | .error _ => .byDim [] with hD
  have hraw' : ∀ y ∈ Y, rawDiagram E k (hfit E k X e).1 y = .ok (D y) ∧ WellFormed (formatOf k) (e.params.dims.insertionSort (· ≤ ·)) (D y) ∧
      ∀ q ∈ e.params.dims.insertionSort (· ≤ ·), rawBars (D y) q = bars y q ∧ ∀ l, withoutOne (D y) l = leaveOut k l := by
    intro y hy
    obtain ⟨D', hd1, hd2⟩ := hraw y hy
    have : D y = D' := by simp only [hD, hd1]
    rw [this]
    exact ⟨hd1, hd2⟩
  obtain ⟨R, hR, hl, hr⟩ := C20_postprocess (formatOf k) (e.params.dims.insertionSort (· ≤ ·)) v E.zero E.lowest e.params.reduced garbage (Y.map D) (by simpa using hY)
    (hp.nodup_iff.2 hnd) (by
      intro D' hD'
      obtain ⟨y, hy, rfl⟩ := List.mem_map.1 hD'
      exact (hraw' y hy).2.1)
  refine ⟨v, R, h5, ?_, by simpa using hl, ?_⟩
  · rw [htransform_stored E k e.params v lo hi w _ hs garbage order Y ho, hcheck, ok_bind]
    have : (Y.mapM fun y => rawDiagram E k (hfit E k X e).1 y) = .ok (Y.map D) := mapM_ok fun y hy => (hraw' y hy).1
    rw [this, ok_bind, hpar]
    exact hR
  · intro i y D' hy hD'
    obtain ⟨g1, g2⟩ := hr i (D y) D' (by simp [hy]) hD'
    have hyY : y ∈ Y := List.mem_of_getElem? hy
    refine ⟨fun p hp' => hp.mem_iff.1 (g1 p hp'), fun q hq => ?_⟩
    obtain ⟨pads, g3, g4⟩ := g2 q (hp.mem_iff.2 hq)
    obtain ⟨b1, b2⟩ := (hraw' y hyY).2.2 q (hp.mem_iff.2 hq)
    refine ⟨pads, ?_, g4⟩
    rw [g3, expectedBars_eq, b1, b2]

end

end Gtda.Props

namespace Gtda.Props.HomologyObject
open Gtda.Py Gtda.Parallel Gtda.Diagrams Gtda.Persistence Gtda.Spec Gtda.Validation Gtda.HomologyObject Gtda.Spec.HomologyObject

section
variable {V S A : Type} [LinearOrder V]

/-- Attributes that `transform` reads are the same. -/
structure SameView (k : Kind) (e e' : HEst V A) : Prop where
  inf : e.inf = e'.inf
  dims : e.dims = e'.dims
  maxDim : e.maxDim = e'.maxDim
  minDim : k = .flagser → e.minDim = e'.minDim
  isPre : k = .rips ∨ k = .weighted ∨ k = .sparse → e.isPre = e'.isPre
  eff : k = .weighted → e.eff = e'.eff
  periodic : k = .cubical → e.periodic = e'.periodic
  maxEdge : e.params.maxEdge = e'.params.maxEdge
  coeff : e.params.coeff = e'.params.coeff
  reduced : e.params.reduced = e'.params.reduced
  precomputed : e.params.precomputed = e'.params.precomputed
  weights : e.params.weights = e'.params.weights
  rest : e.params.rest = e'.params.rest

theorem htransform_congr (E : Env V S A) (k : Kind) (e e' : HEst V A) (h : SameView k e e') (garbage : Nat → Nat → Pt V Nat) (order : List Nat) (Y : List S) :
    htransform E k garbage order Y e = htransform E k garbage order Y e' := by
  have hcall : callOf k e = callOf k e' := by
    cases k <;> simp only [callOf, h.maxDim, h.dims, h.maxEdge, h.coeff, h.precomputed, h.weights, h.rest]
    · rw [h.eff rfl]
    · rw [h.minDim rfl]
    · rw [h.periodic rfl]
  have hraw : ∀ y, rawDiagram E k e y = rawDiagram E k e' y := fun y => by unfold rawDiagram; rw [hcall]
  have hflag : transformFlag k e = transformFlag k e' := by
    cases k <;> simp [transformFlag, h.isPre]
  have hfit : isFitted k e = isFitted k e' := by
    cases k <;> simp [isFitted, h.inf, h.eff, h.periodic]
  unfold htransform
  simp only [hraw, hflag, hfit, h.dims, h.inf, h.reduced]

theorem sameView_stored (k : Kind) (P : HParams V A) (v : V) (lo hi : Nat) (w : List (String × PyVal)) (e e' : HEst V A) (h : Stored k P v lo hi w e) (h' : Stored k P v lo hi w e')
    (hp : e.params = e'.params) : SameView k e e' :=
  ⟨h.inf.trans h'.inf.symm, h.dims.trans h'.dims.symm, h.maxDim.trans h'.maxDim.symm, fun hk => (h.minDim hk).trans (h'.minDim hk).symm, fun hk => (h.isPre hk).trans (h'.isPre hk).symm,
    fun hk => (h.eff hk).trans (h'.eff hk).symm, fun hk => (h.periodic hk).trans (h'.periodic hk).symm, by rw [hp], by rw [hp], by rw [hp], by rw [hp], by rw [hp], by rw [hp]⟩

theorem hrun_params (E : Env V S A) (k : Kind) (ops : List (HOp V S A)) (e : HEst V A) : (hrun E k ops e).params = hlastSet e.params ops := by
  induction ops generalizing e with
  | nil => rfl
  | cons op ops ih =>
    cases op with
    | fit X =>
      show (hrun E k ops (hfit E k X e).1).params = hlastSet e.params ops
      rw [ih, hfit_params]
    | set P => exact ih (hset P e)

theorem infinity_unique (E : Env V S A) (k : Kind) (P : HParams V A) (X : List S) (v v' : V) (h : IsInfinityValue E k P X v) (h' : IsInfinityValue E k P X v') : v = v' := by
  have a := (infinityValue_ok E k X P v).2 h
  have b := (infinityValue_ok E k X P v').2 h'
  rw [a] at b
  cases b
  rfl

end

end Gtda.Props.HomologyObject

namespace Gtda.Props
open Gtda.Py Gtda.Parallel Gtda.Diagrams Gtda.Persistence Gtda.Spec Gtda.Validation Gtda.HomologyObject Gtda.Spec.HomologyObject Gtda.Props.HomologyObject

section
variable {V S A : Type} [LinearOrder V]

/-- **C116.** Data that are no matrices where the metric at the time of `fit` (or flagser) wants them, or otherwise not accepted, are rejected by `transform`, with the same exception. -/
theorem C116_rejected (E : Env V S A) (k : Kind) (X : List S) (e : HEst V A) (hf : (hfit E k X e).2 = .ok ()) (Y : List S) (er : PyErr)
    (hcheck : E.check k (wantsMatrices k e.params) Y = .error er) (P' : HParams V A) (garbage : Nat → Nat → Pt V Nat) (order : List Nat) :
    htransform E k garbage order Y (hset P' (hfit E k X e).1) = .error er := by
  obtain ⟨lo, hi, w, v, h1, h2, h3, h4, h5⟩ := hfit_success E k X e hf
  have ha := (hfit_of E k X e lo hi h1 h2 h3 w h4 _ h5).2
  have hs : Stored k e.params v lo hi w (hset P' (hfit E k X e).1) := ⟨ha.inf, ha.dims, ha.maxDim, ha.minDim, ha.isPre, ha.eff, ha.periodic⟩
  unfold htransform
  rw [if_pos (isFitted_stored k _ v lo hi w _ hs), flag_stored k _ v lo hi w _ hs, ok_bind, hcheck]
  rfl

/-- **C116.** After any history (successful and failed fits, parameter changes), a fit succeeds exactly if it does for a new object with the parameters set last, and `transform` then returns exactly what it returns for that
new object: nothing of the history is left. -/
theorem C116_history (E : Env V S A) (k : Kind) (P : HParams V A) (ops : List (HOp V S A)) (X : List S) :
    ((hfit E k X (hrun E k ops (hnew P))).2 = .ok () ↔ (hfit E k X (hnew (hlastSet P ops))).2 = .ok ()) ∧
    ((hfit E k X (hnew (hlastSet P ops))).2 = .ok () → ∀ garbage order Y,
      htransform E k garbage order Y (hfit E k X (hrun E k ops (hnew P))).1 = htransform E k garbage order Y (hfit E k X (hnew (hlastSet P ops))).1) := by
  have hpar : (hrun E k ops (hnew P)).params = hlastSet P ops := hrun_params E k ops (hnew P)
  constructor
  · rw [C116_fit, C116_fit, hpar]
    rfl
  · intro h garbage order Y
    obtain ⟨lo, hi, w, v, h1, h2, h3, h4, h5⟩ := hfit_success E k X _ h
    have ha := (hfit_of E k X (hnew (hlastSet P ops)) lo hi h1 h2 h3 w h4 v h5).2
    have hb : Stored k (hlastSet P ops) v lo hi w (hfit E k X (hrun E k ops (hnew P))).1 := by
      have := (hfit_of E k X (hrun E k ops (hnew P)) lo hi (by rw [hpar]; exact h1) (by rw [hpar]; exact h2) (by rw [hpar]; exact h3) w (by rw [hpar]; exact h4) v (by rw [hpar]; exact h5)).2
      rwa [hpar] at this
    exact htransform_congr E k _ _ (sameView_stored k _ v lo hi w _ _ hb ha (by rw [hfit_params, hfit_params, hpar]; rfl)) garbage order Y

/-- **C116.** Except for images without `infinity_values`, the data passed to `fit` are irrelevant once accepted; and in all classes the order in which parallel tasks are executed is. -/
theorem C116_training (E : Env V S A) (k : Kind) (X X' : List S) (e : HEst V A) (h : (hfit E k X e).2 = .ok ()) (h' : (hfit E k X' e).2 = .ok ())
    (hk : (k = .cubical ∧ e.params.inf = none) → E.largest X = E.largest X') (garbage : Nat → Nat → Pt V Nat) (order order' : List Nat) (Y : List S) (ho : Covers order Y) (ho' : Covers order' Y) :
    htransform E k garbage order Y (hfit E k X e).1 = htransform E k garbage order' Y (hfit E k X' e).1 := by
  obtain ⟨lo, hi, w, v, h1, h2, h3, h4, h5⟩ := hfit_success E k X e h
  obtain ⟨_, _, _, v', -, -, h3', -, h5'⟩ := hfit_success E k X' e h'
  have hv : v' = v := by
    refine infinity_unique E k e.params X' v' v h5' ?_
    revert h5 hk
    unfold IsInfinityValue
    cases e.params.inf with
    | some u => exact fun _ h => h
    | none =>
      dsimp only
      intro hk h5
      by_cases hc : k = .cubical
      · rw [if_pos hc] at h5 ⊢
        rw [← hk ⟨hc, rfl⟩]
        exact h5
      · rw [if_neg hc] at h5 ⊢
        exact h5
  subst hv
  have ha := (hfit_of E k X e lo hi h1 h2 h3 w h4 _ h5).2
  have hb := (hfit_of E k X' e lo hi h1 h2 h3' w h4 _ h5').2
  rw [htransform_congr E k _ _ (sameView_stored k _ _ lo hi w _ _ ha hb (by rw [hfit_params, hfit_params])) garbage order Y,
    htransform_stored E k _ _ lo hi w _ hb garbage order Y ho, htransform_stored E k _ _ lo hi w _ hb garbage order' Y ho']

/-- **C116.** Setting parameters after `fit`: homology dimensions, `infinity_values`, weight parameters and periodic dimensions have no effect until the next `fit`. -/
theorem C116_ignored_after_fit (E : Env V S A) (k : Kind) (X : List S) (e : HEst V A) (hd : List Nat) (infv : Option V) (wp : List (String × PyVal)) (per : Option (List Bool))
    (garbage : Nat → Nat → Pt V Nat) (order : List Nat) (Y : List S) :
    htransform E k garbage order Y (hset { e.params with dims := hd, inf := infv, weightParams := wp, periodic := per } (hfit E k X e).1) = htransform E k garbage order Y (hfit E k X e).1 :=
  htransform_congr E k _ _ (by
    have := hfit_params E k X e
    constructor <;> intros <;> simp only [hset, this]) garbage order Y

/-- **C116.** Setting parameters after `fit`: all others act at once, as if they had been set before `fit` together with the dimensions, the weight parameters, the periodic dimensions and the infinity value in use,
provided that the metric is precomputed before and after, or neither, and `weights` stays of the same kind. -/
theorem C116_set_after_fit_partial (E : Env V S A) (k : Kind) (X : List S) (e : HEst V A) (hf : (hfit E k X e).2 = .ok ()) (P' : HParams V A)
    (hpre : k = .rips ∨ k = .weighted ∨ k = .sparse → P'.precomputed = e.params.precomputed) (hwt : k = .weighted → P'.weights = e.params.weights) (v : V)
    (hv : IsInfinityValue E k e.params X v) (hvalid : E.validate k (afterFit e.params P' v) = .ok ()) (garbage : Nat → Nat → Pt V Nat) (order : List Nat) (Y : List S) :
    (hfit E k X (hnew (afterFit e.params P' v))).2 = .ok () ∧
    htransform E k garbage order Y (hset P' (hfit E k X e).1) = htransform E k garbage order Y (hfit E k X (hnew (afterFit e.params P' v))).1 := by
  obtain ⟨lo, hi, w, v', h1, h2, h3, h4, h5⟩ := hfit_success E k X e hf
  have := infinity_unique E k e.params X _ _ h5 hv
  subst this
  have ha := (hfit_of E k X e lo hi h1 h2 h3 w h4 _ h5).2
  have hb := hfit_of E k X (hnew (afterFit e.params P' v')) lo hi h1 h2 ⟨hvalid, by
      have : wantsMatrices k (hnew (afterFit e.params P' v')).params = wantsMatrices k e.params := by
        by_cases hk : k = .rips ∨ k = .weighted ∨ k = .sparse
        · simp [wantsMatrices, hnew, afterFit, hpre hk]
        · simp [wantsMatrices, hk]
      rw [this]
      exact h3.data⟩ w (fun hk => by
        have := h4 hk
        rw [← hwt hk] at this
        exact this) v' rfl
  refine ⟨hb.1, htransform_congr E k _ _ ?_ garbage order Y⟩
  have hp1 := hfit_params E k X e
  have hp2 := hfit_params E k X (hnew (afterFit e.params P' v'))
  have hb := hb.2
  refine ⟨ha.inf.trans hb.inf.symm, ha.dims.trans hb.dims.symm, ha.maxDim.trans hb.maxDim.symm, fun hk => (ha.minDim hk).trans (hb.minDim hk).symm,
    fun hk => ?_, fun hk => (ha.eff hk).trans (hb.eff hk).symm, fun hk => (ha.periodic hk).trans (hb.periodic hk).symm, ?_, ?_, ?_, ?_, ?_, ?_⟩
  · refine (ha.isPre hk).trans ?_
    rw [hb.isPre hk]
    simp [hnew, afterFit, hpre hk]
  all_goals rw [hp2]; rfl

/-- **C116.** A new object, with any parameters set, raises `NotFittedError`. -/
theorem C116_not_fitted (E : Env V S A) (k : Kind) (P P' : HParams V A) (garbage : Nat → Nat → Pt V Nat) (order : List Nat) (Y : List S) :
    htransform E k garbage order Y (hset P' (hnew P)) = .error .notFitted := by
  cases k <;> rfl

/-- **C116, failed fits.** A call of `fit` on a fitted object which is rejected because of its parameters or its data raises, and does not change what `transform` returns, provided that the metric is precomputed as it was when the
object was fitted, or neither, and that the weights and weight parameters are as they were then. (Missing: the other failures, which do change it, see below.) -/
theorem C116_failed_fit_partial (E : Env V S A) (k : Kind) (X : List S) (e : HEst V A) (hf : (hfit E k X e).2 = .ok ()) (P' : HParams V A)
    (hpre : k = .rips ∨ k = .weighted ∨ k = .sparse → P'.precomputed = e.params.precomputed) (hwt : k = .weighted → P'.weights = e.params.weights ∧ P'.weightParams = e.params.weightParams)
    (X' : List S) (hrej : ¬ (E.validate k P' = .ok () ∧ E.check k (wantsMatrices k P') X' = .ok ())) (garbage : Nat → Nat → Pt V Nat) (order : List Nat) (Y : List S) :
    (hfit E k X' (hset P' (hfit E k X e).1)).2 ≠ .ok () ∧
    htransform E k garbage order Y (hfit E k X' (hset P' (hfit E k X e).1)).1 = htransform E k garbage order Y (hset P' (hfit E k X e).1) := by
  refine ⟨fun h => ?_, ?_⟩
  · obtain ⟨_, _, _, _, -, -, h3, -⟩ := hfit_success E k X' _ h
    exact hrej ⟨h3.params, h3.data⟩
  · obtain ⟨lo, hi, w, v, h1, h2, h3, h4, h5⟩ := hfit_success E k X e hf
    have ha := (hfit_of E k X e lo hi h1 h2 h3 w h4 _ h5).2
    apply htransform_congr
    generalize hg : (hfit E k X e).1 = g at ha
    have hrefl : ∀ e' : HEst V A, SameView k e' e' := fun e' => by constructor <;> intros <;> rfl
    unfold hfit
    cases hpc : precheck E k X' (hset P' g).params with
    | error er => exact hrefl _
    | ok u =>
      have hpc' := (precheck_iff E k X' (hset P' g).params).1 hpc
      have hkk : k = .rips ∨ k = .weighted ∨ k = .sparse := by
        by_contra hc
        simp only [not_or] at hc
        exact hrej ⟨hpc'.1, hpc'.2 hc.1 hc.2.1 hc.2.2⟩
      have hchk : E.check k P'.precomputed X' ≠ .ok () := by
        intro hc
        refine hrej ⟨hpc'.1, ?_⟩
        have : wantsMatrices k P' = P'.precomputed := by
          rcases hkk with rfl | rfl | rfl <;> simp [wantsMatrices]
        rw [this]
        exact hc
      obtain ⟨er, her⟩ : ∃ er, E.check k P'.precomputed X' = .error er := by
        cases hc : E.check k P'.precomputed X' with
        | ok u => exact absurd hc hchk
        | error er => exact ⟨er, rfl⟩
      have hpr : (some P'.precomputed : Option Bool) = g.isPre := by rw [ha.isPre hkk, hpre hkk]
      dsimp only
      rcases hkk with rfl | rfl | rfl
      · have : prepare E .rips X' (hset P' g) = ({ hset P' g with isPre := some P'.precomputed }, .error er) := by
          simp only [prepare]; exact congrArg _ her
        rw [this]
        constructor <;> intros <;> first | rfl | exact hpr
      · have hw : weightStep (hset P' g).params = (some w, .ok ()) := by
          apply weightStep_of_ok
          have := h4 rfl
          rw [← (hwt rfl).1, ← (hwt rfl).2] at this
          exact this
        have : prepare E .weighted X' (hset P' g) = ({ hset P' g with eff := some w, isPre := some P'.precomputed }, .error er) := by
          simp only [prepare, hw]
          exact congrArg _ her
        rw [this]
        constructor <;> intros <;> first | rfl | exact hpr | exact (ha.eff rfl).symm
      · have : prepare E .sparse X' (hset P' g) = ({ hset P' g with isPre := some P'.precomputed }, .error er) := by
          simp only [prepare]; exact congrArg _ her
        rw [this]
        constructor <;> intros <;> first | rfl | exact hpr

end

/-! ### Witnesses -/

/-- Samples are numbers, the odd ones are distance matrices. Ripser finds two components that merge at 1 and in dimension `q > 0` a class born at `5q` which never dies, if the threshold allows; the weighted engine a bar that
ends at the weight parameter `p`; GUDHI one component born at the number itself. -/
def hE : Env ℚ Nat Unit where
  validate _ P := if P.coeff < 2 then .error .valueError else .ok ()
  check _ flag X := if X.isEmpty || (flag && X.any fun x => decide (x % 2 = 0)) then .error .valueError else .ok ()
  largest X := match X with
    | [] => .error .valueError
    | x :: t => .ok (t.foldl max x : Nat)
  dgms k c _ := match k with
    | .weighted => .ok [[(.num 0, .num (match lookupKey ((c.weights.map Prod.snd).getD []) "p" with | some (.int n) => (n : ℚ) | _ => 0)), (.num 0, .posinf)]]
    | _ => .ok ((List.range (c.maxDim.getD 0 + 1)).map fun q =>
        if q = 0 then [(.num 0, .num 1), (.num 0, .posinf)] else if 5 * (q : ℚ) ≤ c.thresh.getD 0 then [(.num (5 * q), .posinf)] else [])
  pairs _ c y := .ok [(0, (.num (y : ℚ), .posinf)), (1, (.num (y : ℚ), .num (y + (c.maxDim.getD 0 : Nat) : ℚ)))]
  zero := 0
  lowest := -1000

/-- Parameters for the witnesses. -/
def hP : HParams ℚ Unit := { dims := [1, 0], coeff := 2, maxEdge := 10, inf := none, reduced := true, precomputed := false, weights := .str "DTM", weightParams := [], periodic := none, rest := () }

/-- Uninitialised memory for the witnesses. -/
def hG : Nat → Nat → Pt ℚ Nat := fun _ _ => ⟨77, 78, 79⟩

/-- Non-vacuity of C116_fit and C116_transform: the hypotheses hold, and the result. -/
example : (hfit hE .rips [2] (hnew hP)).2 = .ok () ∧ hE.check .rips (wantsMatrices .rips hP) [4, 6] = .ok () ∧
    htransform hE .rips hG [1, 0] [4, 6] (hfit hE .rips [2] (hnew hP)).1 = .ok [[⟨0, 1, 0⟩, ⟨5, 10, 1⟩], [⟨0, 1, 0⟩, ⟨5, 10, 1⟩]] := by decide +kernel

example : IsSmallest hP.dims 0 ∧ IsLargest hP.dims 1 ∧ EngineBars hE .rips (intendedCall .rips hP 0 1 []) 0 1 4 fun q => if q = 0 then [(.num 0, .num 1), (.num 0, .posinf)] else [(.num 5, .posinf)] := by
  refine ⟨by simp [IsSmallest, hP], by simp [IsLargest, hP], _, rfl, by decide, ?_⟩
  intro q hq
  have : q = 0 ∨ q = 1 := by omega
  rcases this with rfl | rfl <;> decide +kernel

/-- The complexes of GUDHI have one dimension more than asked for. -/
example : htransform hE .sparse hG [0] [4] (hfit hE .sparse [2] (hnew hP)).1 = .ok [[⟨0, 0, 0⟩, ⟨4, 6, 1⟩]] ∧
    htransform hE .cech hG [0] [4] (hfit hE .cech [2] (hnew { hP with reduced := false })).1 = .ok [[⟨4, 10, 0⟩, ⟨4, 6, 1⟩]] ∧
    htransform hE .flagser hG [0] [5] (hfit hE .flagser [3] (hnew { hP with dims := [1] })).1 = .ok [[⟨0, 1, 1⟩, ⟨0, 10, 1⟩]] ∧
    htransform hE .weighted hG [0] [4] (hfit hE .weighted [2] (hnew { hP with dims := [0], weightParams := [("p", .int 2)] })).1 = .ok [[⟨0, 2, 0⟩]] := by
  refine ⟨?_, ?_, ?_, ?_⟩ <;> decide +kernel

/-- Non-vacuity of C116_rejected. -/
example : hE.check .flagser (wantsMatrices .flagser hP) [4] = .error .valueError ∧ (hfit hE .flagser [3] (hnew hP)).2 = .ok () := by decide +kernel

/-- Non-vacuity of C116_history: a failed fit, a change of parameters, and a fit. -/
example : (hfit hE .rips [2] (hnew (hlastSet hP [.fit [2], .set { hP with coeff := 1 }, .fit [2], .set { hP with dims := [0] }]))).2 = .ok () ∧
    htransform hE .rips hG [0] [4] (hfit hE .rips [2] (hrun hE .rips [.fit [2], .set { hP with coeff := 1 }, .fit [2], .set { hP with dims := [0] }] (hnew hP))).1 = .ok [[⟨0, 1, 0⟩]] := by
  decide +kernel

/-- Non-vacuity of C116_set_after_fit_partial: the coefficients are changed. -/
example : (hfit hE .rips [2] (hnew hP)).2 = .ok () ∧ IsInfinityValue hE .rips hP [2] 10 ∧ hE.validate .rips (afterFit hP { hP with coeff := 3 } 10) = .ok () := by
  refine ⟨?_, rfl, ?_⟩ <;> decide +kernel

/-- Non-vacuity of C116_failed_fit_partial: `coeff = 1` is rejected. -/
example : (hfit hE .rips [2] (hnew hP)).2 = .ok () ∧ hE.validate .rips { hP with coeff := 1 } = .error .valueError := by decide +kernel

/-- **C116, false: `set_params` after `fit`.** With the default `infinity_values`, a larger `max_edge_length` set after `fit` is used by the engine, but infinite deaths are still replaced by the former value: the class born at 5,
which is reported as `(5, 10)` if the parameter is set before `fit`, is missing. -/
theorem C116_refuted_threshold :
    ∃ (E : Env ℚ Nat Unit) (P : HParams ℚ Unit) (X Y : List Nat) (G : Nat → Nat → Pt ℚ Nat) (v : ℚ), P.inf = none ∧ (hfit E .rips X (hnew P)).2 = .ok () ∧
      htransform E .rips G [0] Y (hset { P with maxEdge := v } (hfit E .rips X (hnew P)).1) = .ok [[⟨0, 1, 0⟩, ⟨0, 0, 1⟩]] ∧
      htransform E .rips G [0] Y (hfit E .rips X (hnew { P with maxEdge := v })).1 = .ok [[⟨0, 1, 0⟩, ⟨5, 10, 1⟩]] :=
  ⟨hE, { hP with maxEdge := 3 }, [2], [4], hG, 10, rfl, by decide +kernel, by decide +kernel, by decide +kernel⟩

/-- **C116, false: `fit` "does nothing" for images.** The diagram of an image depends on the images passed to `fit`: after a fit on darker images, the essential class of the image is missing. -/
theorem C116_refuted_training_images :
    ∃ (E : Env ℚ Nat Unit) (P : HParams ℚ Unit) (X X' Y : List Nat) (G : Nat → Nat → Pt ℚ Nat), (hfit E .cubical X (hnew P)).2 = .ok () ∧ (hfit E .cubical X' (hnew P)).2 = .ok () ∧
      htransform E .cubical G [0] Y (hfit E .cubical X (hnew P)).1 = .ok [[⟨0, 0, 0⟩]] ∧ htransform E .cubical G [0] Y (hfit E .cubical X' (hnew P)).1 = .ok [[⟨3, 9, 0⟩]] :=
  ⟨hE, { hP with dims := [0], reduced := false }, [2], [9], [3], hG, by decide +kernel, by decide +kernel, by decide +kernel, by decide +kernel⟩

/-- **C116, false: a failed fit leaves a fitted object alone.** An empty list of dimensions is accepted by the validation of parameters and then raises `IndexError`; afterwards `transform` returns diagrams without any point.
Rejected weight parameters are stored and used by `transform`. And data rejected as distance matrices leave the object rejecting point clouds, even with the former metric. -/
theorem C116_refuted_failed_fit :
    (∃ (E : Env ℚ Nat Unit) (P : HParams ℚ Unit) (X Y : List Nat) (G : Nat → Nat → Pt ℚ Nat), (hfit E .rips X (hnew P)).2 = .ok () ∧
      (hfit E .rips X (hset { P with dims := [] } (hfit E .rips X (hnew P)).1)).2 = .error .indexError ∧
      htransform E .rips G [0] Y (hset { P with dims := [] } (hfit E .rips X (hnew P)).1) = .ok [[⟨0, 1, 0⟩, ⟨5, 10, 1⟩]] ∧
      htransform E .rips G [0] Y (hfit E .rips X (hset { P with dims := [] } (hfit E .rips X (hnew P)).1)).1 = .ok [[]]) ∧
    (∃ (E : Env ℚ Nat Unit) (P : HParams ℚ Unit) (wp : List (String × PyVal)) (X Y : List Nat) (G : Nat → Nat → Pt ℚ Nat), (hfit E .weighted X (hnew P)).2 = .ok () ∧
      (hfit E .weighted X (hset { P with weightParams := wp } (hfit E .weighted X (hnew P)).1)).2 = .error .valueError ∧
      htransform E .weighted G [0] Y (hset { P with weightParams := wp } (hfit E .weighted X (hnew P)).1) = .ok [[⟨0, 1, 0⟩]] ∧
      htransform E .weighted G [0] Y (hfit E .weighted X (hset { P with weightParams := wp } (hfit E .weighted X (hnew P)).1)).1 = .ok [[⟨0, 3, 0⟩]]) ∧
    (∃ (E : Env ℚ Nat Unit) (P : HParams ℚ Unit) (X Y : List Nat) (G : Nat → Nat → Pt ℚ Nat), (hfit E .rips X (hnew P)).2 = .ok () ∧
      (hfit E .rips X (hset { P with precomputed := true } (hfit E .rips X (hnew P)).1)).2 = .error .valueError ∧
      htransform E .rips G [0] Y (hfit E .rips X (hnew P)).1 = .ok [[⟨0, 1, 0⟩, ⟨5, 10, 1⟩]] ∧
      htransform E .rips G [0] Y (hset P (hfit E .rips X (hset { P with precomputed := true } (hfit E .rips X (hnew P)).1)).1) = .error .valueError) :=
  ⟨⟨hE, hP, [2], [4], hG, by decide +kernel, by decide +kernel, by decide +kernel, by decide +kernel⟩,
    ⟨hE, { hP with dims := [0] }, [("p", .int 3)], [2], [4], hG, by decide +kernel, by decide +kernel, by decide +kernel, by decide +kernel⟩,
    ⟨hE, hP, [2], [4], hG, by decide +kernel, by decide +kernel, by decide +kernel, by decide +kernel⟩⟩

/-- **C116, false: `NotFittedError` unless fitted.** After a first fit that failed, `transform` may raise `AttributeError` or `ValueError` instead. -/
theorem C116_refuted_not_fitted :
    ∃ (E : Env ℚ Nat Unit) (P : HParams ℚ Unit) (X Y : List Nat) (G : Nat → Nat → Pt ℚ Nat),
      (hfit E .rips X (hnew P)).2 = .error .indexError ∧ htransform E .rips G [0] Y (hfit E .rips X (hnew P)).1 = .error .attributeError ∧
      (hfit E .sparse X (hnew P)).2 = .error .indexError ∧ htransform E .sparse G [0] Y (hfit E .sparse X (hnew P)).1 = .error .valueError ∧
      (hfit E .weighted X (hnew { P with weightParams := [("p", .int 3)] })).2 = .error .valueError ∧
      htransform E .weighted G [0] Y (hfit E .weighted X (hnew { P with weightParams := [("p", .int 3)] })).1 = .error .attributeError :=
  ⟨hE, { hP with dims := [] }, [2], [4], hG, by decide +kernel, by decide +kernel, by decide +kernel, by decide +kernel, by decide +kernel, by decide +kernel⟩

end Gtda.Props
