import Verif.Props.Diagrams
import Verif.Props.Features
import Verif.Props.Polynomials
import Verif.Props.Vectorizers
import Verif.Spec.FeatureObject

/-!
# Features and filtering of diagrams as objects (C124)
-/

set_option autoImplicit false
set_option linter.unusedSectionVars false

namespace Gtda.Props.FeatureObject

open Py Gtda.Diagrams Gtda.FeatureObject Gtda.Spec.FeatureObject Gtda.Spec.Vectorizers

section

variable {P K Q O : Type} [Field K] [LinearOrder K] (c : Cls P K Q O)

/-- The object agrees with what the history left. -/
def Agrees (D : P → List (List (Pt K Q)) → List Q → Prop) (o : Obj P Q) (t : P × Option (P × List (List (Pt K Q)))) : Prop :=
  o.params = t.1 ∧ match t.2 with
    | none => o.dims = none
    | some (q, X) => ∃ d, o.dims = some d ∧ D q X d

open Classical in
theorem fit_agrees (Acc : P → List (List (Pt K Q)) → Prop) (D : P → List (List (Pt K Q)) → List Q → Prop)
    (hacc : ∀ p X, Acc p X → Vectorizers.check X = .ok () ∧ c.validate p = .ok () ∧ ∃ d, c.dims p X = .ok d ∧ D p X d)
    (hrej : ∀ p X, ¬ Acc p X → ∀ o : Obj P Q, o.params = p → ∃ e, fit c o X = (o, .error e))
    (ops : List (Op P K Q)) : ∀ (o : Obj P Q) t, Agrees D o t → Agrees D (run c o ops) (after Acc t ops) := by
  induction ops with
  | nil => intro o t h; exact h
  | cons op ops ih =>
      intro o t h
      cases op with
      | setParams q => exact ih { o with params := q } (q, t.2) ⟨rfl, h.2⟩
      | transform n X => exact ih o t h
      | fit X =>
          change Agrees D (run c (fit c o X).1 ops) (after Acc (t.1, if Acc t.1 X then some (t.1, X) else t.2) ops)
          apply ih
          by_cases ha : Acc t.1 X
          · rw [if_pos ha]
            obtain ⟨h1, h2, d, h3, h4⟩ := hacc _ _ ha
            have e : fit c o X = ({ o with dims := some d }, .ok ()) := by
              unfold fit
              rw [h1]
              dsimp only
              rw [h.1, h2]
              dsimp only
              rw [h3]
            rw [e]
            exact ⟨h.1, d, rfl, h4⟩
          · rw [if_neg ha]
            obtain ⟨e, he⟩ := hrej _ _ ha o h.1
            rw [he]
            exact h

theorem check_error (X : List (List (Pt K Q))) (h : ¬ Valid X) : ∃ e, Vectorizers.check X = .error e := by
  cases hc : Vectorizers.check X with
  | error e => exact ⟨e, rfl⟩
  | ok u => exact absurd ((Vectorizers.check_ok_iff X).1 hc) h

theorem fit_error_of_check (o : Obj P Q) (X : List (List (Pt K Q))) (h : ¬ Valid X) : ∃ e, fit c o X = (o, .error e) := by
  obtain ⟨e, he⟩ := check_error X h
  exact ⟨e, by unfold fit; rw [he]⟩

theorem transform_ok (o : Obj P Q) (d : List Q) (ho : o.dims = some d) (nJobs : Nat) (X : List (List (Pt K Q))) (hX : Valid X) :
    transform c o nJobs X = c.body o.params d nJobs X := by
  unfold transform
  rw [ho]
  dsimp only
  rw [(Vectorizers.check_ok_iff X).2 hX]
  rfl

end

section

variable {K Q : Type} [Field K] [LinearOrder K] [LinearOrder Q]

/-- Classes that store the homology dimensions of the first diagram. -/
theorem observed_agrees {P O : Type} (c : Cls P K Q O) (hv : ∀ p, c.validate p = .ok ()) (hd : ∀ p X, c.dims p X = .ok (Vectorizers.observedDims X)) (p : P) (ops : List (Op P K Q)) :
    Agrees (fun _ X d => DimsOfFirst d X) (run c ⟨p, none⟩ ops) (after (fun _ X => Valid X) (p, none) ops) := by
  apply fit_agrees
  · intro p X hX
    exact ⟨(Vectorizers.check_ok_iff X).2 hX, hv p, _, hd p X, Vectorizers.observedDims_spec X⟩
  · intro p X hX o _
    exact fit_error_of_check c o X hX
  · exact ⟨rfl, rfl⟩

theorem dims_ne_nil {X : List (List (Pt K Q))} {d : List Q} (h : DimsOfFirst d X) (hX : ∃ D, X[0]? = some D ∧ D ≠ []) : d ≠ [] := by
  rintro rfl
  obtain ⟨D, h0, hD⟩ := hX
  obtain ⟨p, t, rfl⟩ := List.exists_cons_of_ne_nil hD
  have := (h.2 p.q).2 ⟨_, h0, p, List.mem_cons_self, rfl⟩
  simp at this

theorem dims_nil {K Q : Type} [Field K] [LinearOrder K] [LinearOrder Q] {dims : List Q} {X : List (List (Pt K Q))} (h : DimsOfFirst dims X) (h0 : X[0]? = some []) : dims = [] := by
  rcases List.eq_nil_or_concat dims with h' | ⟨t, q, rfl⟩
  · exact h'
  · obtain ⟨D, hD, p, hp, -⟩ := (h.2 q).1 (by simp)
    rw [h0] at hD
    cases hD
    cases hp

end

end Gtda.Props.FeatureObject

namespace Gtda.Props

open Py Gtda.Diagrams Gtda.FeatureObject Gtda.Spec.FeatureObject Gtda.Spec.Vectorizers Gtda.Props.FeatureObject

section

variable {K Q : Type} [Field K] [LinearOrder K] [IsStrictOrderedRing K] [LinearOrder Q]

/-- **C124.** `NumberOfPoints` after any history: without an acceptable `fit`, `transform` raises `NotFittedError`. Otherwise there is one column for each homology dimension of the first diagram of the
last collection accepted by `fit`, in increasing order, with the numbers of off-diagonal points in this dimension of the diagrams to be transformed, for every number of jobs. -/
theorem C124_points (ops : List (Op Unit K Q)) (nJobs : Nat) (hn : 1 ≤ nJobs) (X' : List (List (Pt K Q))) :
    match (after (fun _ X => Valid X) ((), none) ops).2 with
    | none => transform pointsCls (run pointsCls ⟨(), none⟩ ops) nJobs X' = .error .notFitted
    | some (_, X) => ∃ dims, DimsOfFirst dims X ∧ ((∃ D, X[0]? = some D ∧ D ≠ []) → Valid X' → (∀ q ∈ dims, EqualCounts X' q) →
        ∃ A, transform pointsCls (run pointsCls ⟨(), none⟩ ops) nJobs X' = .ok A ∧ A.length = X'.length ∧ (∀ r ∈ A, r.length = dims.length) ∧
          ∀ (i k : Nat) D q, X'[i]? = some D → dims[k]? = some q → entry2 A i k = some (D.countP fun p => decide (p.q = q ∧ p.b ≠ p.d))) := by
  have h := observed_agrees (K := K) (Q := Q) pointsCls (fun _ => rfl) (fun _ _ => rfl) () ops
  revert h
  generalize run pointsCls ⟨(), none⟩ ops = o
  generalize after (fun _ X => Valid X) ((), none) ops = t
  intro h
  obtain ⟨p, t⟩ := t
  cases t with
  | none =>
      have : o.dims = none := h.2
      dsimp only
      unfold transform
      rw [this]
  | some x =>
      obtain ⟨q, X⟩ := x
      obtain ⟨d, hd, hD⟩ := h.2
      refine ⟨d, hD, fun hX hX' hE => ?_⟩
      rw [transform_ok pointsCls o d hd nJobs X' hX']
      exact (C38_number_of_points d (dims_ne_nil hD hX)).1 nJobs X' hn hX'.1 hE fun _ _ => trivial

/-- **C124.** Diagrams without points have no homology dimensions: after a last accepted `fit` to them, `transform` of `NumberOfPoints` raises `ValueError` (there is nothing to concatenate). -/
theorem C124_points_none (ops : List (Op Unit K Q)) (nJobs : Nat) (X : List (List (Pt K Q))) (q : Unit) (hl : (after (fun _ X => Valid X) ((), none) ops).2 = some (q, X)) (h0 : X[0]? = some [])
    (X' : List (List (Pt K Q))) (hX' : Valid X') : transform pointsCls (run pointsCls ⟨(), none⟩ ops) nJobs X' = .error .valueError := by
  have h := observed_agrees (K := K) (Q := Q) pointsCls (fun _ => rfl) (fun _ _ => rfl) () ops
  revert h hl
  generalize run pointsCls ⟨(), none⟩ ops = o
  generalize after (fun _ X => Valid X) ((), none) ops = t
  intro hl h
  obtain ⟨p, t⟩ := t
  obtain rfl : t = some (q, X) := hl
  obtain ⟨d, hd, hD⟩ := h.2
  rw [transform_ok pointsCls o d hd nJobs X' hX', dims_nil hD h0]
  rfl

end

section

variable {Q : Type} [LinearOrder Q]

/-- **C124.** `PersistenceEntropy` after any history: homology dimensions are those of the first diagram of the last collection accepted by `fit`, `normalize` and `nan_fill_value` are the present
ones. The entry of a diagram with an off-diagonal point is the Shannon entropy of its relative lifetimes, if `normalize` divided by the logarithm of the total lifetime (unless this is one); the entry of
a diagram with diagonal points only is `nan_fill_value`. -/
theorem C124_entropy (fmax : ℝ) (p0 : Bool × Option ℝ) (ops : List (Op (Bool × Option ℝ) ℝ Q)) (nJobs : Nat) (hn : 1 ≤ nJobs) (X' : List (List (Pt ℝ Q))) :
    match after (fun _ X => Valid X) (p0, none) ops with
    | (_, none) => transform (entropyCls fmax) (run (entropyCls fmax) ⟨p0, none⟩ ops) nJobs X' = .error .notFitted
    | (p, some (_, X)) => ∃ dims, DimsOfFirst dims X ∧ ((∃ D, X[0]? = some D ∧ D ≠ []) → Valid X' → (∀ q ∈ dims, EqualCounts X' q) →
        ∃ A, transform (entropyCls fmax) (run (entropyCls fmax) ⟨p0, none⟩ ops) nJobs X' = .ok A ∧ A.length = X'.length ∧ (∀ r ∈ A, r.length = dims.length) ∧
          ∀ (i k : Nat) D q, X'[i]? = some D → dims[k]? = some q →
            (¬ TrivialIn D q → p.1 = false → entry2 A i k = some (some ((shannon2 (relativeLifetimes D q) : ℝ) : EReal))) ∧
            (¬ TrivialIn D q → p.1 = true → (lifetimesIn D q).sum ≠ 1 →
              entry2 A i k = some (some ((shannon2 (relativeLifetimes D q) / Real.logb 2 (lifetimesIn D q).sum : ℝ) : EReal))) ∧
            (TrivialIn D q → (∃ x ∈ D, x.q = q) → entry2 A i k = some (p.2.map fun (x : ℝ) => (x : EReal)))) := by
  have h := observed_agrees (Q := Q) (entropyCls fmax) (fun _ => rfl) (fun _ _ => rfl) p0 ops
  revert h
  generalize run (entropyCls fmax) ⟨p0, none⟩ ops = o
  generalize after (fun _ X => Valid X) (p0, none) ops = t
  intro h
  obtain ⟨p, t⟩ := t
  cases t with
  | none =>
      have : o.dims = none := h.2
      dsimp only
      unfold transform
      rw [this]
  | some x =>
      obtain ⟨q, X⟩ := x
      obtain ⟨d, hd, hD⟩ := h.2
      refine ⟨d, hD, fun hX hX' hE => ?_⟩
      rw [transform_ok (entropyCls fmax) o d hd nJobs X' hX', show o.params = p from h.1]
      have hne := dims_ne_nil hD hX
      change ∃ A, entropyTransform p.1 p.2 fmax d nJobs X' = .ok A ∧ _
      cases hp : p.1 with
      | false =>
          obtain ⟨α, h1, h2⟩ := C37_persistence_entropy p.2 fmax d hne
          obtain ⟨A, hA, hl, hr, hent⟩ := h1 nJobs X' hn hX'.1 hE fun D hD => hX'.2.2 D hD
          refine ⟨A, hA, hl, hr, ?_⟩
          intro i k D q hi hk
          obtain ⟨g1, g2, -, -⟩ := h2 q (List.mem_of_getElem? hk) D (hX'.2.2 D (List.mem_of_getElem? hi))
          refine ⟨fun ht _ => ?_, fun _ e => absurd e (by simp), fun ht he => ?_⟩
          · rw [hent i k D q hi hk, (g1 ht).1]
          · rw [hent i k D q hi hk, g2 ht he]
      | true =>
          obtain ⟨α, h1, h2⟩ := C81_normalised_entropy p.2 fmax d hne
          obtain ⟨A, hA, hl, hr, hent⟩ := h1 nJobs X' hn hX'.1 hE fun D hD => hX'.2.2 D hD
          refine ⟨A, hA, hl, hr, ?_⟩
          intro i k D q hi hk
          obtain ⟨g1, -, -, g2, -⟩ := h2 q (List.mem_of_getElem? hk) D (hX'.2.2 D (List.mem_of_getElem? hi))
          refine ⟨fun _ e => absurd e (by simp), fun ht _ hs => ?_, fun ht he => ?_⟩
          · rw [hent i k D q hi hk, g1 ht hs]
          · rw [hent i k D q hi hk, g2 ht he]

end

section

variable {K Q : Type} [Field K] [LinearOrder K] [IsStrictOrderedRing K] [LinearOrder Q]

/-- **C124.** `Filtering` after any history: the filtered dimensions are those given by the parameter `homology_dimensions` at the time of the last acceptable `fit`, or those of the first diagram
passed to it; the cutoff is the present `epsilon`, whatever it was in `fit`. In filtered dimensions exactly the points with lifetime above the cutoff are kept, in order, followed by diagonal points; in
other dimensions nothing changes. -/
theorem C124_filtering (p0 : Option (List Q) × K) (ops : List (Op (Option (List Q) × K) K Q)) (nJobs : Nat) (X' : List (List (Pt K Q))) :
    match after (fun p X => Valid X ∧ 0 ≤ p.2) (p0, none) ops with
    | (_, none) => transform filteringCls (run filteringCls ⟨p0, none⟩ ops) nJobs X' = .error .notFitted
    | (p, some (q, X)) => ∃ dims, FilteredDims q.1 X dims ∧ (Valid X' → dims.Nodup → (∀ q, q ∉ dims → EqualCounts X' q) →
        ∃ R, transform filteringCls (run filteringCls ⟨p0, none⟩ ops) nJobs X' = .ok R ∧ R.length = X'.length ∧
          ∀ (i : Nat) (D D' : List (Pt K Q)), X'[i]? = some D → R[i]? = some D' →
            (∀ q ∈ dims, ∃ pads : List (Pt K Q), pointsIn D' q = longLived p.2 D q ++ pads ∧ ∀ x ∈ pads, x.b = x.d) ∧ ∀ q, q ∉ dims → pointsIn D' q = pointsIn D q) := by
  have h : Agrees (fun q X d => FilteredDims q.1 X d) (run filteringCls ⟨p0, none⟩ ops) (after (fun p X => Valid X ∧ 0 ≤ p.2) (p0, none) ops) := by
    apply fit_agrees
    · rintro ⟨g, e⟩ X ⟨hX, he⟩
      refine ⟨(Vectorizers.check_ok_iff X).2 hX, if_neg (not_lt.2 he), ?_⟩
      cases g with
      | some l => exact ⟨_, rfl, List.perm_insertionSort _ _, List.pairwise_insertionSort _ _⟩
      | none =>
          obtain ⟨D, t, rfl⟩ := List.exists_cons_of_ne_nil hX.1
          exact ⟨_, rfl, Vectorizers.observedDims_spec (D :: t)⟩
    · rintro ⟨g, e⟩ X hX o ho
      by_cases hv : Valid X
      · have he : e < 0 := by
          by_contra hc
          exact hX ⟨hv, not_lt.1 hc⟩
        refine ⟨.valueError, ?_⟩
        unfold fit
        rw [(Vectorizers.check_ok_iff X).2 hv]
        dsimp only
        rw [ho, show (filteringCls (K := K) (Q := Q)).validate (g, e) = .error .valueError from if_pos he]
      · exact fit_error_of_check _ o X hv
    · exact ⟨rfl, rfl⟩
  revert h
  generalize run filteringCls ⟨p0, none⟩ ops = o
  generalize after (fun p X => Valid X ∧ 0 ≤ p.2) (p0, none) ops = t
  intro h
  obtain ⟨p, t⟩ := t
  cases t with
  | none =>
      have : o.dims = none := h.2
      dsimp only
      unfold transform
      rw [this]
  | some x =>
      obtain ⟨q, X⟩ := x
      obtain ⟨d, hd, hD⟩ := h.2
      refine ⟨d, hD, fun hX' hnd hE => ?_⟩
      rw [transform_ok filteringCls o d hd nJobs X' hX', show o.params = p from h.1]
      exact C22_filtering X' d p.2 hX'.1 hnd hE

end

/-- **C124, non-vacuity.** A history with a refused `fit`, an accepted one and a change of parameters: the filtered dimension is that of the accepted `fit`, the cutoff the one set afterwards. -/
theorem C124_filtering_example :
    let ops : List (Op (Option (List Nat) × ℚ) ℚ Nat) := [.fit [[⟨1, 0, 5⟩]], .setParams (none, 1), .fit [[⟨0, 1, 0⟩]], .setParams (some [1], 3), .transform 1 []]
    let X' : List (List (Pt ℚ Nat)) := [[⟨0, 2, 0⟩, ⟨0, 4, 0⟩, ⟨0, 1, 1⟩]]
    transform filteringCls (run filteringCls ⟨(none, -1), none⟩ ops) 1 X' = .ok [[⟨0, 4, 0⟩, ⟨0, 1, 1⟩]] ∧ Valid X' := by
  refine ⟨by decide +kernel, by simp, by simp, ?_⟩
  intro D hD p hp
  simp only [List.mem_singleton] at hD
  subst hD
  simp only [List.mem_cons, List.not_mem_nil, or_false] at hp
  rcases hp with rfl | rfl | rfl <;> norm_num

example :
    let ops : List (Op Unit ℚ Nat) := [.fit [], .fit [[⟨0, 1, 2⟩, ⟨0, 1, 0⟩]], .transform 1 [], .fit [[⟨1, 0, 5⟩]]]
    transform pointsCls (run pointsCls ⟨(), none⟩ ops) 2 ([[⟨0, 2, 0⟩, ⟨0, 4, 0⟩, ⟨0, 1, 1⟩, ⟨3, 3, 2⟩], [⟨0, 2, 0⟩, ⟨4, 4, 0⟩, ⟨0, 1, 1⟩, ⟨2, 3, 2⟩]] : List (List (Pt ℚ Nat))) = .ok [[2, 0], [1, 1]] := by decide +kernel

-- `C124_points_none`: after `fit` to diagrams without points
example : transform pointsCls (run pointsCls ⟨(), none⟩ ([.fit [[], []]] : List (Op Unit ℚ Nat))) 2 ([[⟨0, 2, 0⟩]] : List (List (Pt ℚ Nat))) = .error .valueError := by decide +kernel

/-! ### `ComplexPolynomial` -/

section

variable {K Q : Type} [Field K] [LinearOrder K] [LinearOrder Q]

theorem FeatureObject.polyValidate_iff (p : PolyParams) (t : PolyType) :
    polyValidate p = .ok t ↔ p.polynomialType = some t ∧ match p.nCoefficients with | .default => True | .int k => 1 ≤ k | .list l => ∀ k ∈ l, 1 ≤ k := by
  obtain ⟨n, s⟩ := p
  cases n with
  | default =>
      cases s with
      | none => simp [polyValidate]
      | some s => simp [polyValidate]
  | int k =>
      cases k with
      | zero => simp [polyValidate]
      | succ k =>
          cases s with
          | none => simp [polyValidate]
          | some s => simp [polyValidate]
  | list l =>
      cases s with
      | none => simp [polyValidate]
      | some s =>
          unfold polyValidate
          dsimp only
          by_cases h : ∀ k ∈ l, 1 ≤ k
          · rw [if_neg ?_]
            · exact ⟨fun e => ⟨congrArg some (Except.ok.inj e), h⟩, fun e => congrArg Except.ok (Option.some.inj e.1)⟩
            · rw [List.any_eq_true]
              rintro ⟨k, hk, e⟩
              have := h k hk
              simp at e
              omega
          · rw [if_pos ?_]
            · simp [h]
            · rw [List.any_eq_true]
              push Not at h
              obtain ⟨k, hk, e⟩ := h
              exact ⟨k, hk, by simpa using e⟩

/-- What `fit` does on valid diagrams. -/
theorem FeatureObject.polyFit_valid (o : Poly Q) (X : List (List (Pt K Q))) (hX : Valid X) (t : PolyType) (ha : PolyAcceptable o.params t (Vectorizers.observedDims X).length) :
    polyFit o X = ({ o with
      dims := some (Vectorizers.observedDims X), coefficients := some (coefficientsOf o.params.nCoefficients (Vectorizers.observedDims X) X), shared := isListed o.params.nCoefficients,
      polynomial := some t }, .ok ()) := by
  have hv : polyValidate o.params = .ok t := by
    rw [FeatureObject.polyValidate_iff]
    refine ⟨ha.1, ?_⟩
    have := ha.2
    cases hc : o.params.nCoefficients with
    | default => trivial
    | int k => rw [hc] at this; exact this
    | list l => rw [hc] at this; exact this.1
  have hc : fitCoefficients o.params.nCoefficients (Vectorizers.observedDims X) (X.headD []) = .ok (coefficientsOf o.params.nCoefficients (Vectorizers.observedDims X) X) := by
    have := ha.2
    cases hc : o.params.nCoefficients with
    | default => rfl
    | int k => simp [fitCoefficients, coefficientsOf, List.map_const']
    | list l =>
        rw [hc] at this
        simp [fitCoefficients, coefficientsOf, this.2]
  unfold polyFit
  rw [hv]
  dsimp only
  rw [(Vectorizers.check_ok_iff X).2 hX]
  dsimp only
  rw [hc]

theorem FeatureObject.harmless_run (ops : List (PolyOp K Q)) : ∀ o : Poly Q, Harmless o.params ops →
    (ops.foldl polyStep o).dims = o.dims ∧ (ops.foldl polyStep o).coefficients = o.coefficients ∧ (ops.foldl polyStep o).polynomial = o.polynomial := by
  induction ops with
  | nil => intro o _; exact ⟨rfl, rfl, rfl⟩
  | cons op ops ih =>
      intro o h
      cases op with
      | setParams p => exact ih _ h
      | changeList l => exact h.elim
      | transform X => exact ih o h
      | fit X =>
          have e : (polyFit o X).1 = o := by
            unfold polyFit
            cases hv : polyValidate o.params with
            | error e => rfl
            | ok t =>
                dsimp only
                rcases h.1 with h1 | h1
                · obtain ⟨g1, g2⟩ := (FeatureObject.polyValidate_iff _ _).1 hv
                  cases hc : o.params.nCoefficients with
                  | default => exact absurd ⟨g1, by rw [hc]; trivial⟩ (h1 t 0)
                  | int k => rw [hc] at g2; exact absurd ⟨g1, by rw [hc]; exact g2⟩ (h1 t 0)
                  | list l => rw [hc] at g2; exact absurd ⟨g1, by rw [hc]; exact ⟨g2, rfl⟩⟩ (h1 t l.length)
                · obtain ⟨e, he⟩ := check_error X h1
                  rw [he]
          rw [List.foldl_cons, show polyStep o (.fit X) = o from e]
          exact ih o h.2

end

section

variable {Q : Type} [LinearOrder Q]

theorem FeatureObject.zipIdx_coeffs (l : List Nat) (d : List Q) : ∀ (k : Nat) (c : List Nat), l.drop k = c → c.length = d.length →
    (d.zipIdx k).map (fun qk => (qk.1, coefficientAt (some l) qk.2)) = (d.zip c).map fun qn => (qn.1, (.ok qn.2 : PyM Nat)) := by
  induction d with
  | nil => intro k c _ _; simp
  | cons q d ih =>
      intro k c hc hl
      cases c with
      | nil => simp at hl
      | cons n c =>
          have hk : l[k]? = some n := by
            have := congrArg (fun x => x[0]?) hc
            simpa using this
          have hd : l.drop (k + 1) = c := by
            have := congrArg (List.drop 1) hc
            rw [List.drop_drop] at this
            simpa [Nat.add_comm] using this
          rw [List.zipIdx_cons, List.map_cons, List.zip_cons_cons, List.map_cons, ih (k + 1) c hd (by simpa using hl)]
          congr 1
          simp [coefficientAt, hk]

theorem FeatureObject.polyTransform_eq (o : Poly Q) (d : List Q) (l : List Nat) (t : PolyType) (h1 : o.dims = some d) (h2 : o.coefficients = some l) (h3 : o.polynomial = some t)
    (hl : l.length = d.length) (X : List (List (Pt ℝ Q))) (hX : Valid X) : polyTransform o X = polynomialTransform t d l X := by
  unfold polyTransform polynomialTransform
  rw [h1]
  dsimp only
  rw [(Vectorizers.check_ok_iff X).2 hX]
  have hm : ∀ D : List (Pt ℝ Q), (d.zipIdx.map fun qk => (D, qk)).mapM (fun x => polyTask o x.1 x.2.1 x.2.2) = ((d.zip l).map fun qn => (D, qn)).mapM (polynomialTask t) := by
    intro D
    have e := FeatureObject.zipIdx_coeffs l d 0 l (by simp) hl
    have a : (d.zipIdx.map fun qk => (D, qk)).mapM (fun x => polyTask o x.1 x.2.1 x.2.2) =
        (d.zipIdx.map (fun qk => (qk.1, coefficientAt (some l) qk.2))).mapM fun y => (do
          let sub ← subdiagrams [D] [y.1]
          let n ← y.2
          complexPolynomial t n (sub.headD []) : PyM (List ℝ)) := by
      rw [List.mapM_map, List.mapM_map]
      congr 1
      funext qk
      simp only [Function.comp, polyTask, h2, h3]
    rw [a, e, List.mapM_map, List.mapM_map]
    rfl
  have hall : (X.flatMap fun D => d.zipIdx.map fun qk => (D, qk)).mapM (fun x => polyTask o x.1 x.2.1 x.2.2) =
      (X.flatMap fun D => (d.zip l).map fun qn => (D, qn)).mapM (polynomialTask t) := by
    clear hX
    induction X with
    | nil => rfl
    | cons D X ih => rw [List.flatMap_cons, List.flatMap_cons, List.mapM_append, List.mapM_append, hm D, ih]
  change (do
    let parts ← (X.flatMap fun D => d.zipIdx.map fun qk => (D, qk)).mapM fun (x : List (Pt ℝ Q) × Q × Nat) => polyTask o x.1 x.2.1 x.2.2
    let flat ← concatAxis0 parts
    reshape2 X.length (flat.length / X.length) flat) = _
  rw [hall]

/-- **C124, part.** `ComplexPolynomial`: whatever happened to the object before, `fit` on valid diagrams succeeds if the parameters are acceptable. Afterwards, until another `fit` gets as far as
storing something, and as long as a list given as `n_coefficients` is not changed, `transform` returns for each diagram with off-diagonal points in all dimensions the coefficients of its
polynomials in the homology dimensions of the first training diagram, with the type and the numbers of coefficients given when `fit` was called. Missing: calls of `fit` that fail half way and lists that
are changed, see `C124_refuted_failed_fit` and `C124_refuted_shared_list`. -/
theorem C124_polynomial_partial (o : Poly Q) (X : List (List (Pt ℝ Q))) (hX : Valid X) (h0 : ∃ D, X[0]? = some D ∧ D ≠ []) (t : PolyType) :
    ∃ dims, DimsOfFirst dims X ∧ (PolyAcceptable o.params t dims.length →
      (polyFit o X).2 = .ok () ∧ ∀ ops : List (PolyOp ℝ Q), Harmless o.params ops → ∀ X' : List (List (Pt ℝ Q)), Valid X' →
        (∀ D ∈ X', ∀ q ∈ dims, ¬ TrivialIn D q) →
        polyTransform (ops.foldl polyStep (polyFit o X).1) X' =
          .ok (X'.map fun D => ((dims.zip (coefficientsOf o.params.nCoefficients dims X)).map fun qn =>
            coeffVector (diagramPoly t D qn.1) (offDiag (pointsIn D qn.1)).length qn.2).flatten)) := by
  refine ⟨Vectorizers.observedDims X, Vectorizers.observedDims_spec X, fun ha => ?_⟩
  have hf := FeatureObject.polyFit_valid o X hX t ha
  refine ⟨by rw [hf], ?_⟩
  intro ops hh X' hX' hne
  obtain ⟨e1, e2, e3⟩ := FeatureObject.harmless_run ops (polyFit o X).1 (by rw [hf]; exact hh)
  have hl : (coefficientsOf o.params.nCoefficients (Vectorizers.observedDims X) X).length = (Vectorizers.observedDims X).length := by
    have := ha.2
    cases hc : o.params.nCoefficients with
    | default => simp [coefficientsOf]
    | int k => simp [coefficientsOf]
    | list l =>
        rw [hc] at this
        exact this.2
  rw [FeatureObject.polyTransform_eq _ (Vectorizers.observedDims X) _ t (by rw [e1, hf]) (by rw [e2, hf]) (by rw [e3, hf]) hl X' hX']
  exact C39_coefficients_partial t _ _ (dims_ne_nil (Vectorizers.observedDims_spec X) h0) hl X' hX'.1 hne

end

/-- Diagrams with one point, in dimension zero. -/
def FeatureObject.oneDim : List (List (Pt ℝ Nat)) := [[⟨0, 1, 0⟩]]

/-- Diagrams with one point in each of the dimensions zero and one. -/
def FeatureObject.twoDims : List (List (Pt ℝ Nat)) := [[⟨0, 1, 0⟩, ⟨0, 1, 1⟩]]

theorem FeatureObject.oneDim_valid : Valid FeatureObject.oneDim := by
  refine ⟨by simp [FeatureObject.oneDim], by simp [FeatureObject.oneDim], ?_⟩
  intro D hD p hp
  simp only [FeatureObject.oneDim, List.mem_singleton] at hD
  subst hD
  simp only [List.mem_singleton] at hp
  subst hp
  norm_num

theorem FeatureObject.twoDims_valid : Valid FeatureObject.twoDims := by
  refine ⟨by simp [FeatureObject.twoDims], by simp [FeatureObject.twoDims], ?_⟩
  intro D hD p hp
  simp only [FeatureObject.twoDims, List.mem_singleton] at hD
  subst hD
  simp only [List.mem_cons, List.not_mem_nil, or_false] at hp
  rcases hp with rfl | rfl <;> norm_num

theorem FeatureObject.oneDim_dims : Vectorizers.observedDims FeatureObject.oneDim = [0] := by
  simp [Vectorizers.observedDims, FeatureObject.oneDim]

theorem FeatureObject.twoDims_dims : Vectorizers.observedDims FeatureObject.twoDims = [0, 1] := by
  simp only [Vectorizers.observedDims, FeatureObject.twoDims, List.headD_cons, List.map_cons, List.map_nil]
  decide

/-- **C124, false after a `fit` that fails.** An object with one coefficient per dimension is fitted on diagrams in dimension zero and transforms them. Then `n_coefficients` is set to a list of three,
and `fit` on diagrams in two dimensions raises `ValueError`; but it has replaced the homology dimensions, and `transform` of the first collection raises `IndexError`. -/
theorem C124_refuted_failed_fit :
    let o1 := (polyFit (newPoly (Q := Nat) ⟨.int 1, some .R⟩) FeatureObject.oneDim).1
    let o2 := polyStep (K := ℝ) o1 (.setParams ⟨.list [1, 1, 1], some .R⟩)
    (∃ R, polyTransform o1 FeatureObject.oneDim = .ok R) ∧ (∃ R, polyTransform o2 FeatureObject.oneDim = .ok R) ∧
      (polyFit o2 FeatureObject.twoDims).2 = .error .valueError ∧ polyTransform (polyFit o2 FeatureObject.twoDims).1 FeatureObject.oneDim = .error .indexError := by
  have h1 := FeatureObject.polyFit_valid (newPoly (Q := Nat) ⟨.int 1, some .R⟩) FeatureObject.oneDim FeatureObject.oneDim_valid .R ⟨rfl, le_refl 1⟩
  have hnt : ¬ TrivialIn ([⟨0, 1, 0⟩] : List (Pt ℝ Nat)) 0 := by
    intro h
    have := h ⟨0, 1, 0⟩ (by simp) rfl
    norm_num at this
  have hok : ∀ p b, ∃ R, polyTransform (⟨p, some [0], some [1], b, some .R⟩ : Poly Nat) FeatureObject.oneDim = .ok R := by
    intro p b
    rw [FeatureObject.polyTransform_eq _ [0] [1] .R rfl rfl rfl rfl _ FeatureObject.oneDim_valid, C39_coefficients_partial .R [0] [1] (by simp) rfl _ (by simp [FeatureObject.oneDim])]
    · exact ⟨_, rfl⟩
    · intro D hD q hq
      simp only [FeatureObject.oneDim, List.mem_singleton] at hD hq
      subst hD hq
      exact hnt
  rw [FeatureObject.oneDim_dims] at h1
  intro o1 o2
  have ho1 : o1 = ⟨⟨.int 1, some .R⟩, some [0], some [1], false, some .R⟩ := by
    change (polyFit _ _).1 = _
    rw [h1]
    rfl
  have ho2 : o2 = ⟨⟨.list [1, 1, 1], some .R⟩, some [0], some [1], false, some .R⟩ := by
    change polyStep (K := ℝ) o1 _ = _
    rw [ho1]
    rfl
  have hf : polyFit o2 FeatureObject.twoDims = (⟨⟨.list [1, 1, 1], some .R⟩, some [0, 1], some [1], false, some .R⟩, .error .valueError) := by
    rw [ho2]
    unfold polyFit
    rw [(Vectorizers.check_ok_iff _).2 FeatureObject.twoDims_valid, FeatureObject.twoDims_dims]
    rfl
  refine ⟨by rw [ho1]; exact hok _ _, by rw [ho2]; exact hok _ _, by rw [hf], ?_⟩
  rw [hf]
  unfold polyTransform
  dsimp only
  rw [(Vectorizers.check_ok_iff _).2 FeatureObject.oneDim_valid]
  have t1 : polyTask (⟨⟨.list [1, 1, 1], some .R⟩, some [0, 1], some [1], false, some .R⟩ : Poly Nat) [⟨0, 1, 0⟩] 0 0 = polynomialTask .R ([⟨0, 1, 0⟩], (0, 1)) := rfl
  have t2 : polyTask (⟨⟨.list [1, 1, 1], some .R⟩, some [0, 1], some [1], false, some .R⟩ : Poly Nat) [⟨0, 1, 0⟩] 1 1 = .error .indexError := by
    unfold polyTask
    rw [subdiagrams_single [_] 1 (by simp) (by simp [EqualCounts])]
    rfl
  rw [polynomialTask_eq .R _ 0 1 hnt] at t1
  simp only [FeatureObject.oneDim, List.flatMap_cons, List.flatMap_nil, List.zipIdx_cons, List.zipIdx_nil, List.map_cons, List.map_nil, List.append_nil, List.mapM_cons, List.mapM_nil, t1, t2]
  rfl

/-- **C124, false if the list is changed.** `n_coefficients_` is the list given as parameter: if its owner changes it after `fit`, `transform` returns vectors of another length. -/
theorem C124_refuted_shared_list :
    let o := (polyFit (newPoly (Q := Nat) ⟨.list [1], some .R⟩) FeatureObject.oneDim).1
    (∃ r, polyTransform o FeatureObject.oneDim = .ok [r] ∧ r.length = 2) ∧ ∃ r, polyTransform (polyStep (K := ℝ) o (.changeList [3])) FeatureObject.oneDim = .ok [r] ∧ r.length = 6 := by
  have h1 := FeatureObject.polyFit_valid (newPoly (Q := Nat) ⟨.list [1], some .R⟩) FeatureObject.oneDim FeatureObject.oneDim_valid .R
    ⟨rfl, by simp [newPoly, FeatureObject.oneDim_dims]⟩
  have hnt : ¬ TrivialIn ([⟨0, 1, 0⟩] : List (Pt ℝ Nat)) 0 := by
    intro h
    have := h ⟨0, 1, 0⟩ (by simp) rfl
    norm_num at this
  have hok : ∀ p b n, ∃ r, polyTransform (⟨p, some [0], some [n], b, some .R⟩ : Poly Nat) FeatureObject.oneDim = .ok [r] ∧ r.length = 2 * n := by
    intro p b n
    rw [FeatureObject.polyTransform_eq _ [0] [n] .R rfl rfl rfl rfl _ FeatureObject.oneDim_valid, C39_coefficients_partial .R [0] [n] (by simp) rfl _ (by simp [FeatureObject.oneDim])]
    · exact ⟨_, rfl, by simp [coeffVector_length]⟩
    · intro D hD q hq
      simp only [FeatureObject.oneDim, List.mem_singleton] at hD hq
      subst hD hq
      exact hnt
  rw [FeatureObject.oneDim_dims] at h1
  intro o
  have ho : o = ⟨⟨.list [1], some .R⟩, some [0], some [1], true, some .R⟩ := by
    change (polyFit _ _).1 = _
    rw [h1]
    rfl
  rw [ho]
  exact ⟨hok _ _ 1, hok _ _ 3⟩

/-- **C124, non-vacuity of `C124_polynomial_partial`.** -/
example : ∃ R, polyTransform ([PolyOp.setParams ⟨.int 0, some .S⟩, .fit [], .fit FeatureObject.twoDims, .transform []].foldl polyStep
    (polyFit (newPoly (Q := Nat) ⟨.default, some .T⟩) FeatureObject.oneDim).1) FeatureObject.oneDim = .ok R := by
  obtain ⟨dims, hD, h⟩ := C124_polynomial_partial (newPoly (Q := Nat) ⟨.default, some .T⟩) FeatureObject.oneDim FeatureObject.oneDim_valid ⟨_, rfl, by simp⟩ .T
  have hn : ∀ t n, ¬ PolyAcceptable ⟨.int 0, some .S⟩ t n := by
    rintro t n ⟨-, h⟩
    exact absurd (show 1 ≤ 0 from h) (by decide)
  refine ⟨_, (h ⟨rfl, trivial⟩).2 [.setParams ⟨.int 0, some .S⟩, .fit [], .fit FeatureObject.twoDims, .transform []]
    (show Harmless (⟨.int 0, some .S⟩ : PolyParams) [.fit [], .fit FeatureObject.twoDims, .transform []] from ⟨.inl hn, .inl hn, trivial⟩) _ FeatureObject.oneDim_valid ?_⟩
  · intro D hD' q hq
    obtain ⟨D', h0, p, hp, hpq⟩ := (hD.2 q).1 hq
    simp only [FeatureObject.oneDim, List.mem_singleton] at hD'
    cases h0
    simp only [List.mem_singleton] at hp
    subst hD' hp hpq
    intro h
    have := h ⟨0, 1, 0⟩ (by simp) rfl
    norm_num at this

end Gtda.Props
