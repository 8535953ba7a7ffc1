import Mathlib.Tactic.NormNum
import Verif.Props.InputChecks
import Verif.Props.Parallel
import Verif.Spec.Stateless

/-!
# Transformers whose `fit` is documented to do nothing (C122)
-/

set_option autoImplicit false
set_option linter.unusedSectionVars false

namespace Gtda.Props.Stateless

open Py Gtda.Checks Gtda.Stateless Gtda.Spec.Stateless

/-! ### Histories -/

section

variable {P I C O : Type} (c : Cls P I C O)

theorem fit_cases (o : Obj P) (X : I) :
    (c.fitCheck o.params X = .ok () ∧ fit c o X = ({ o with isFitted := true }, .ok ())) ∨ ∃ e, c.fitCheck o.params X = .error e ∧ fit c o X = (o, .error e) := by
  unfold fit
  cases h : c.fitCheck o.params X with
  | ok u => left; exact ⟨rfl, rfl⟩
  | error e => right; exact ⟨e, rfl, rfl⟩

theorem fitTransform_fst (o : Obj P) (X : I) : (fitTransform c o X).1 = (fit c o X).1 := by
  unfold fitTransform
  rcases fit_cases c o X with ⟨_, h⟩ | ⟨e, _, h⟩ <;> rw [h]

theorem run_spec (Acc : P → I → Prop) (hAcc : ∀ p X, c.fitCheck p X = .ok () ↔ Acc p X) (ops : List (Op P I C)) : ∀ o : Obj P,
    (run c o ops).params = lastParams o.params ops ∧ ((run c o ops).isFitted = true ↔ o.isFitted = true ∨ Fitted Acc o.params ops) := by
  induction ops with
  | nil => intro o; exact ⟨rfl, by simp [run, Fitted]⟩
  | cons op ops ih =>
      intro o
      have key : ∀ X : I, (run c (fit c o X).1 ops).params = lastParams o.params ops ∧
          ((run c (fit c o X).1 ops).isFitted = true ↔ o.isFitted = true ∨ (Acc o.params X ∨ Fitted Acc o.params ops)) := by
        intro X
        obtain ⟨h1, h2⟩ := ih (fit c o X).1
        rcases fit_cases c o X with ⟨h, e⟩ | ⟨e', h, e⟩
        · rw [e] at h1 h2 ⊢
          refine ⟨h1, h2.trans ?_⟩
          have := (hAcc _ _).1 h
          simp [this]
        · rw [e] at h1 h2 ⊢
          refine ⟨h1, h2.trans ?_⟩
          have : ¬ Acc o.params X := fun k => by
            rw [(hAcc _ _).2 k] at h
            cases h
          simp [this]
      cases op with
      | setParams q => exact ih { o with params := q }
      | call x => exact ih o
      | fit X => exact key X
      | fitTransform X =>
          have : run c o (.fitTransform X :: ops) = run c (fit c o X).1 ops := by
            show run c (fitTransform c o X).1 ops = _
            rw [fitTransform_fst]
          rw [this]
          exact key X

theorem behaves_of (Acc : P → I → Prop) (value : P → C → Option O) (hAcc : ∀ p X, c.fitCheck p X = .ok () ↔ Acc p X)
    (hv : ∀ p x, (c.body p x).toOption = value p x) : Behaves c Acc value := by
  intro p ops
  obtain ⟨h1, h2⟩ := run_spec c Acc hAcc ops (new p)
  have h2' : (run c (new p) ops).isFitted = true ↔ Fitted Acc p ops := by simpa [new] using h2
  change (run c (new p) ops).params = lastParams p ops at h1
  set o := run c (new p) ops with ho
  refine ⟨?_, ?_, ?_, ?_, ?_⟩
  · intro X
    rw [← hAcc, ← h1]
    rcases fit_cases c o X with ⟨h, e⟩ | ⟨e', h, e⟩
    · simp [e, h]
    · simp [e, h]
  · intro hn x
    unfold call
    rw [if_neg (fun k => hn (h2'.1 k))]
  · intro hf x
    unfold call
    rw [if_pos (h2'.2 hf), hv, h1]
  · intro X hX
    unfold fitTransform
    rcases fit_cases c o X with ⟨h, e⟩ | ⟨e', h, e⟩
    · rw [e]
      dsimp only
      unfold call
      rw [if_pos rfl, hv, h1]
    · rw [h1, (hAcc _ _).2 hX] at h
      cases h
  · intro X hX
    unfold fitTransform
    rcases fit_cases c o X with ⟨h, e⟩ | ⟨e', h, e⟩
    · rw [h1, hAcc] at h
      exact absurd h hX
    · rw [e]
      rfl

end

/-! ### Checks of arrays -/

section

variable {K : Type}

theorem all_finite (x : Arr K) : x.data.all Num.isFinite = true ↔ AllFinite x := by
  rw [List.all_eq_true]
  constructor
  · intro h a ha
    have := h a ha
    cases a with
    | fin v => exact ⟨v, rfl⟩
    | inf b => simp [Num.isFinite] at this
    | nan => simp [Num.isFinite] at this
  · intro h a ha
    obtain ⟨v, rfl⟩ := h a ha
    rfl

theorem check_dense (e2 nd : Bool) (x : Arr K) (hs : x.sparse = false) (he : e2 = true ∨ x.shape ≠ []) :
    (shapeOk e2 nd x = true ∧ AllFinite x → checkArray false true e2 nd x = .ok x) ∧
    (¬ (shapeOk e2 nd x = true ∧ AllFinite x) → ∃ e, checkArray false true e2 nd x = .error e) := by
  obtain ⟨h1, h2⟩ := checkArray_spec false true e2 nd x (by simp [hs]) he (by simp [hs])
  simp only [all_finite, forall_true_left] at h1 h2
  exact ⟨h1, fun h => ⟨_, h2 h⟩⟩

theorem check_sparse (e2 nd : Bool) (x : Arr K) (hs : x.sparse = true) : checkArray false true e2 nd x = .error .typeError := by
  unfold checkArray
  simp [hs]

theorem check_no_axes (nd : Bool) (x : Arr K) (h : x.shape = []) : ∃ e, checkArray false true false nd x = .error e := by
  unfold checkArray
  rw [h]
  by_cases c1 : (x.sparse && !false) = true
  · exact ⟨_, by rw [if_pos c1]⟩
  · rw [if_neg c1, if_neg (by simp), if_neg (by simp)]
    by_cases c2 : (true && !x.data.all Num.isFinite) = true
    · exact ⟨_, by rw [if_pos c2]⟩
    · exact ⟨_, by rw [if_neg c2]⟩

theorem matrix_check (x : Arr K) : (IsMatrix x → checkArray false true true false x = .ok x) ∧ (¬ IsMatrix x → ∃ e, checkArray false true true false x = .error e) := by
  cases hs : x.sparse with
  | true => exact ⟨fun h => absurd (h.1.symm.trans hs) (by simp), fun _ => ⟨_, check_sparse _ _ x hs⟩⟩
  | false =>
      have key : IsMatrix x ↔ shapeOk true false x = true ∧ AllFinite x := by
        unfold IsMatrix shapeOk
        rw [hs]
        constructor
        · rintro ⟨_, hf, n, m, h, hn, hm⟩
          rw [h]
          exact ⟨by simp; omega, hf⟩
        · rintro ⟨h, hf⟩
          refine ⟨rfl, hf, ?_⟩
          match hx : x.shape, h with
          | [], h => simp at h
          | [n], h => simp at h
          | [n, m], h =>
              simp at h
              exact ⟨n, m, rfl, by omega, by omega⟩
          | _ :: _ :: _ :: _, h => simp at h
      rw [key]
      exact check_dense true false x hs (.inl rfl)

theorem batch_check (x : Arr K) : (IsBatch x → checkArray false true true true x = .ok x) ∧ (¬ IsBatch x → ∃ e, checkArray false true true true x = .error e) := by
  cases hs : x.sparse with
  | true => exact ⟨fun h => absurd (h.1.symm.trans hs) (by simp), fun _ => ⟨_, check_sparse _ _ x hs⟩⟩
  | false =>
      have key : IsBatch x ↔ shapeOk true true x = true ∧ AllFinite x := by
        unfold IsBatch shapeOk
        rw [hs]
        constructor
        · rintro ⟨_, hf, ⟨n, m, h, hn, hm⟩ | ⟨n, a, b, r, h, hn⟩⟩
          · rw [h]
            exact ⟨by simp; omega, hf⟩
          · rw [h]
            exact ⟨by simp; omega, hf⟩
        · rintro ⟨h, hf⟩
          refine ⟨rfl, hf, ?_⟩
          match hx : x.shape, h with
          | [], h => simp at h
          | [n], h => simp at h
          | [n, m], h =>
              simp at h
              exact .inl ⟨n, m, rfl, by omega, by omega⟩
          | n :: a :: b :: r, h =>
              simp at h
              exact .inr ⟨n, a, b, r, rfl, by omega⟩
      rw [key]
      exact check_dense true true x hs (.inl rfl)

theorem series_check (x : Arr K) : (IsSeries x → checkArray false true false true x = .ok x) ∧ (¬ IsSeries x → ∃ e, checkArray false true false true x = .error e) := by
  cases hs : x.sparse with
  | true => exact ⟨fun h => absurd (h.1.symm.trans hs) (by simp), fun _ => ⟨_, check_sparse _ _ x hs⟩⟩
  | false =>
      by_cases h0 : x.shape = []
      · refine ⟨fun h => ?_, fun _ => check_no_axes true x h0⟩
        rcases h.2.2 with ⟨n, h, _⟩ | ⟨n, m, h, _⟩ | ⟨n, a, b, r, h, _⟩ <;> rw [h0] at h <;> cases h
      have key : IsSeries x ↔ shapeOk false true x = true ∧ AllFinite x := by
        unfold IsSeries shapeOk
        rw [hs]
        constructor
        · rintro ⟨_, hf, ⟨n, h, hn⟩ | ⟨n, m, h, hn, hm⟩ | ⟨n, a, b, r, h, hn⟩⟩
          · rw [h]
            exact ⟨by simp; omega, hf⟩
          · rw [h]
            exact ⟨by simp; omega, hf⟩
          · rw [h]
            exact ⟨by simp; omega, hf⟩
        · rintro ⟨h, hf⟩
          refine ⟨rfl, hf, ?_⟩
          match hx : x.shape, h with
          | [], h => exact absurd hx h0
          | [n], h =>
              simp at h
              exact .inl ⟨n, rfl, by omega⟩
          | [n, m], h =>
              simp at h
              exact .inr (.inl ⟨n, m, rfl, by omega, by omega⟩)
          | n :: a :: b :: r, h =>
              simp at h
              exact .inr (.inr ⟨n, a, b, r, rfl, by omega⟩)
      rw [key]
      exact check_dense false true x hs (.inr h0)

end

/-- A computation that starts with a check. -/
theorem bind_check {A B : Type} {Q : Prop} [Decidable Q] (m : PyM A) (a : A) (f : A → PyM B) (h : (Q → m = .ok a) ∧ (¬ Q → ∃ e, m = .error e)) :
    (m >>= f).toOption = if Q then (f a).toOption else none := by
  by_cases hQ : Q
  · rw [if_pos hQ, h.1 hQ]
    rfl
  · obtain ⟨e, he⟩ := h.2 hQ
    rw [if_neg hQ, he]
    rfl

/-- The checks of `fit` alone. -/
theorem check_unit {A : Type} {Q : Prop} (m : PyM A) (a : A) (h : (Q → m = .ok a) ∧ (¬ Q → ∃ e, m = .error e)) : (do let _ ← m; pure () : PyM Unit) = .ok () ↔ Q := by
  by_cases hQ : Q
  · rw [h.1 hQ]
    simp [hQ]
  · obtain ⟨e, he⟩ := h.2 hQ
    rw [he]
    simp [hQ]

/-- The checks of `fit` with a check of parameters. -/
theorem check_params {A : Type} {Q R : Prop} [Decidable R] (m : PyM A) (a : A) (h : (Q → m = .ok a) ∧ (¬ Q → ∃ e, m = .error e)) (e0 : PyErr) :
    (do let _ ← m; if R then .error e0 else pure () : PyM Unit) = .ok () ↔ Q ∧ ¬ R := by
  by_cases hQ : Q
  · rw [h.1 hQ]
    by_cases hR : R
    · simp [hQ, hR]
    · simp [hQ, hR]
  · obtain ⟨e, he⟩ := h.2 hQ
    rw [he]
    simp [hQ]

theorem column_check {K : Type} [Zero K] (y : Arr K) :
    (IsColumn y → columnOr1d y = .ok (y.data.map Neighbors.value)) ∧ (¬ IsColumn y → ∃ e, columnOr1d y = .error e) := by
  constructor
  · rintro ⟨n, h | h⟩ <;> simp [columnOr1d, h]
  · intro h
    unfold columnOr1d
    split
    · rename_i n hn
      exact absurd ⟨n, .inl hn⟩ h
    · rename_i n hn
      exact absurd ⟨n, .inr hn⟩ h
    · exact ⟨_, rfl⟩

/-! ### Collections -/

section

variable {K : Type}

theorem collect_ok (l : List (Arr K)) (h : ∀ x ∈ l, IsSeries x) : ∀ (failed : Bool) (acc : List (Arr K)),
    checkEntries (checkArrayMod false true false true) l failed acc = .ok (failed, acc ++ l) := by
  induction l with
  | nil => intro failed acc; simp [checkEntries]
  | cons x l ih =>
      intro failed acc
      have hx : checkArrayMod false true false true x = .ok x := by
        unfold checkArrayMod
        rw [if_neg (by simp)]
        exact (series_check x).1 (h x List.mem_cons_self)
      unfold checkEntries
      rw [hx]
      dsimp only
      rw [ih (fun y hy => h y (List.mem_cons_of_mem _ hy))]
      simp

theorem collect_failed (l : List (Arr K)) : ∀ (acc : List (Arr K)),
    (∃ e, checkEntries (checkArrayMod false true false true) l true acc = .error e) ∨ ∃ r, checkEntries (checkArrayMod false true false true) l true acc = .ok (true, r) := by
  induction l with
  | nil => intro acc; exact .inr ⟨acc, rfl⟩
  | cons x l ih =>
      intro acc
      unfold checkEntries
      cases hx : checkArrayMod false true false true x with
      | ok y => exact ih _
      | error e =>
          cases e with
          | valueError => exact ih _
          | _ => exact .inl ⟨_, rfl⟩

theorem collect_bad (l : List (Arr K)) (h : ¬ ∀ x ∈ l, IsSeries x) : ∀ (acc : List (Arr K)),
    (∃ e, checkEntries (checkArrayMod false true false true) l false acc = .error e) ∨ ∃ r, checkEntries (checkArrayMod false true false true) l false acc = .ok (true, r) := by
  induction l with
  | nil => exact absurd (by simp) h
  | cons x l ih =>
      intro acc
      by_cases hx : IsSeries x
      · have hx' : checkArrayMod false true false true x = .ok x := by
          unfold checkArrayMod
          rw [if_neg (by simp)]
          exact (series_check x).1 hx
        unfold checkEntries
        rw [hx']
        exact ih (fun k => h (by
          intro y hy
          rcases List.mem_cons.1 hy with rfl | hy
          · exact hx
          · exact k y hy)) _
      · obtain ⟨e, he⟩ := (series_check x).2 hx
        have hx' : checkArrayMod false true false true x = .error e := by
          unfold checkArrayMod
          rw [if_neg (by simp)]
          exact he
        unfold checkEntries
        rw [hx']
        cases e with
        | valueError => exact collect_failed l acc
        | _ => exact .inl ⟨_, rfl⟩

/-- What `check_collection` returns for an accepted collection. -/
def asOutput : Input K → Output K
  | .array x => .array x
  | .list l => .list l

theorem collection_check [Field K] [LinearOrder K] (X : Input K) :
    (IsCollection X → checkCollection false true X = .ok (asOutput X)) ∧ (¬ IsCollection X → ∃ e, checkCollection false true X = .error e) := by
  cases X with
  | array x =>
      have hm : checkArrayMod false true true true x = checkArray false true true true x := by
        unfold checkArrayMod
        rw [if_neg (by simp)]
      constructor
      · intro h
        show (do let y ← checkArrayMod false true true true x; pure (Output.array y) : PyM (Output K)) = _
        rw [hm, (batch_check x).1 h]
        rfl
      · intro h
        obtain ⟨e, he⟩ := (batch_check x).2 h
        refine ⟨e, ?_⟩
        show (do let y ← checkArrayMod false true true true x; pure (Output.array y) : PyM (Output K)) = _
        rw [hm, he]
        rfl
  | list l =>
      constructor
      · intro h
        unfold checkCollection
        dsimp only
        rw [collect_ok l h]
        rfl
      · intro h
        unfold checkCollection
        dsimp only
        rcases collect_bad l h [] with ⟨e, he⟩ | ⟨r, hr⟩
        · rw [he]
          exact ⟨e, rfl⟩
        · rw [hr]
          exact ⟨_, rfl⟩

theorem iterate_asOutput [Field K] [LinearOrder K] (X : Input K) : Neighbors.iterate (asOutput X) = items X := by cases X <;> rfl

end

/-! ### Frames -/

section

variable {K : Type} [Field K] [LinearOrder K]

theorem lookup_toOption (columns : List (Key × List (Num K))) (k : Key) : (lookup columns k).toOption = column columns k := by
  unfold lookup column
  cases columns.find? fun e => decide (e.1 = k) <;> rfl

theorem mapM_toOption {A B : Type} (f : A → PyM B) (l : List A) : (l.mapM f).toOption = l.mapM fun a => (f a).toOption := by
  induction l with
  | nil => rfl
  | cons a l ih =>
      rw [List.mapM_cons, List.mapM_cons, ← ih]
      cases f a with
      | error e => rfl
      | ok b =>
          cases List.mapM f l with
          | error e => rfl
          | ok bs => rfl

theorem bind_toOption {A B : Type} (m : PyM A) (f : A → PyM B) : (m >>= f).toOption = m.toOption.bind fun a => (f a).toOption := by
  cases m <;> rfl

theorem chunks_flatMap {A B : Type} (m : Nat) (g : A → List B) (hg : ∀ a, (g a).length = m) (l : List A) : Neighbors.chunks m l.length (l.flatMap g) = l.map g := by
  induction l with
  | nil => rfl
  | cons a l ih =>
      show (g a ++ l.flatMap g).take m :: Neighbors.chunks m l.length ((g a ++ l.flatMap g).drop m) = _
      rw [List.take_left' (hg a), List.drop_left' (hg a), ih]
      rfl

theorem rows_ofColumns (n : Nat) (cols : List (List (Num K))) : rows (ofColumns n cols) = (List.range n).map fun i => cols.map fun c => Neighbors.value (c.getD i .nan) := by
  unfold rows ofColumns
  dsimp only
  rw [List.map_flatMap]
  have h := chunks_flatMap cols.length (fun i : Nat => (cols.map fun c => c.getD i Num.nan).map Neighbors.value) (by intro i; simp) (List.range n)
  rw [List.length_range] at h
  rw [h]
  simp [List.map_map, Function.comp_def]

theorem finite_ofColumns (n : Nat) (cols : List (List (Num K))) : AllFinite (ofColumns n cols) ↔ ∀ c ∈ cols, ∀ i < n, ∃ v, c[i]? = some (Num.fin v) := by
  have hgd : ∀ (c : List (Num K)) (i : Nat) (v : K), c.getD i .nan = .fin v ↔ c[i]? = some (Num.fin v) := by
    intro c i v
    rw [List.getD_eq_getElem?_getD]
    cases c[i]? <;> simp
  unfold AllFinite ofColumns
  simp only [List.mem_flatMap, List.mem_map, List.mem_range]
  constructor
  · intro h c hc i hi
    obtain ⟨v, hv⟩ := h _ ⟨i, hi, c, hc, rfl⟩
    exact ⟨v, (hgd c i v).1 hv⟩
  · rintro h a ⟨i, hi, c, hc, rfl⟩
    obtain ⟨v, hv⟩ := h c hc i hi
    exact ⟨v, (hgd c i v).2 hv⟩

theorem frame_check (n : Nat) (columns : List (Key × List (Num K))) :
    (IsFrame n columns → checkArray false true true false (ofColumns n (columns.map (·.2))) = .ok (ofColumns n (columns.map (·.2)))) ∧
    (¬ IsFrame n columns → ∃ e, checkArray false true true false (ofColumns n (columns.map (·.2))) = .error e) := by
  have key : IsFrame n columns ↔ IsMatrix (ofColumns n (columns.map (·.2))) := by
    unfold IsFrame IsMatrix
    rw [finite_ofColumns]
    constructor
    · rintro ⟨h1, h2, h3⟩
      refine ⟨rfl, ?_, n, columns.length, by simp [ofColumns], h1, List.length_pos_iff.2 h2⟩
      intro c hc i hi
      obtain ⟨e, he, rfl⟩ := List.mem_map.1 hc
      exact h3 e he i hi
    · rintro ⟨_, h1, n', m, h2, h3, h4⟩
      simp only [ofColumns, List.length_map, List.cons.injEq, and_true] at h2
      obtain ⟨rfl, rfl⟩ := h2
      refine ⟨h3, List.length_pos_iff.1 h4, fun e he i hi => h1 e.2 (List.mem_map_of_mem he) i hi⟩
  rw [key]
  exact matrix_check _

theorem one_check (n : Nat) (c : List (Num K)) :
    (0 < n ∧ (∀ a ∈ c, ∃ v, a = .fin v) → checkArray false true false false (⟨[n], c, false⟩ : Arr K) = .ok ⟨[n], c, false⟩) ∧
    (¬ (0 < n ∧ ∀ a ∈ c, ∃ v, a = .fin v) → ∃ e, checkArray false true false false (⟨[n], c, false⟩ : Arr K) = .error e) := by
  have key : (0 < n ∧ ∀ a ∈ c, ∃ v, a = .fin v) ↔ shapeOk false false (⟨[n], c, false⟩ : Arr K) = true ∧ AllFinite (⟨[n], c, false⟩ : Arr K) := by
    unfold shapeOk AllFinite
    simp
    omega
  rw [key]
  exact check_dense false false _ rfl (.inr (by simp))

theorem many_check (n : Nat) (cs : List (List (Num K))) :
    (0 < n ∧ cs ≠ [] ∧ (∀ c ∈ cs, ∀ i < n, ∃ v, c[i]? = some (.fin v)) → checkArray false true false false (ofColumns n cs) = .ok (ofColumns n cs)) ∧
    (¬ (0 < n ∧ cs ≠ [] ∧ ∀ c ∈ cs, ∀ i < n, ∃ v, c[i]? = some (.fin v)) → ∃ e, checkArray false true false false (ofColumns n cs) = .error e) := by
  have key : (0 < n ∧ cs ≠ [] ∧ ∀ c ∈ cs, ∀ i < n, ∃ v, c[i]? = some (Num.fin v)) ↔ shapeOk false false (ofColumns n cs) = true ∧ AllFinite (ofColumns n cs) := by
    rw [finite_ofColumns]
    unfold shapeOk ofColumns
    simp [Nat.one_le_iff_ne_zero, Nat.pos_iff_ne_zero, and_assoc]
  rw [key]
  exact check_dense false false _ rfl (.inr (by simp [ofColumns]))

end

end Gtda.Props.Stateless

namespace Gtda.Props

open Py Gtda.Checks Gtda.Stateless Gtda.Spec.Stateless Gtda.Props.Stateless

/-- **C122.** `Eccentricity` and `Entropy`: fitting accepts finite matrices and has no other effect than to permit `transform`; values depend on the present parameters and the matrix only. -/
theorem C122_filters : Behaves eccentricityCls (fun _ => IsMatrix) eccentricities ∧ Behaves entropyCls (fun _ => IsMatrix) (fun _ => entropies) := by
  classical
  constructor
  · refine behaves_of _ _ _ (fun p X => check_unit _ X (matrix_check X)) fun p X => ?_
    unfold eccentricities
    rw [show eccentricityCls.body p X = (checkArray false true true false X >>= fun Xt => match p.metric with
      | none => pure (Mapper.eccentricity p.exponent true (fun _ _ => 0) (rows Xt))
      | some d => pure (Mapper.eccentricity p.exponent false d (rows Xt))) from rfl, bind_check _ X _ (matrix_check X)]
    by_cases h : IsMatrix X
    · rw [if_pos h, if_pos h]
      cases p.metric <;> rfl
    · rw [if_neg h, if_neg h]
  · refine behaves_of _ _ _ (fun p X => check_unit _ X (matrix_check X)) fun p X => ?_
    unfold entropies
    rw [show entropyCls.body p X = (checkArray false true true false X >>= fun Xt => pure (Mapper.entropyFilter (rows Xt))) from rfl,
      bind_check _ X _ (matrix_check X)]
    rfl

/-- **C122.** `Projection`, on arrays and data frames. -/
theorem C122_projection {K : Type} [Field K] [LinearOrder K] : Behaves (projectionCls (K := K)) (fun _ => IsTable) projected := by
  classical
  refine behaves_of _ _ _ (fun p X => ?_) fun p X => ?_
  · cases X with
    | array x => exact check_unit _ x (matrix_check x)
    | frame n columns => exact check_unit _ _ (frame_check n columns)
  · cases X with
    | frame n columns =>
        cases p with
        | one k =>
            show (lookup columns k >>= fun col => checkArray false true false false ⟨[n], col, false⟩ >>= fun Xt => pure (Xt.data.map fun x => [Neighbors.value x])).toOption = _
            rw [bind_toOption, lookup_toOption]
            show _ = (column columns k).bind _
            congr 1
            funext c
            rw [bind_check _ _ _ (one_check n c)]
            rfl
        | many ks =>
            show (ks.mapM (lookup columns) >>= fun cols => checkArray false true false false (ofColumns n cols) >>= fun Xt => pure (rows Xt)).toOption = _
            rw [bind_toOption, mapM_toOption, funext (lookup_toOption columns)]
            show _ = (ks.mapM (column columns)).bind _
            cases hc : ks.mapM (column columns) with
            | none => rfl
            | some cs =>
                have hlen : cs ≠ [] ↔ ks ≠ [] := by
                  cases ks with
                  | nil =>
                      cases hc
                      simp
                  | cons k ks =>
                      rw [List.mapM_cons] at hc
                      obtain ⟨a, _, ha⟩ := Option.bind_eq_some_iff.1 hc
                      obtain ⟨b, _, hb⟩ := Option.bind_eq_some_iff.1 ha
                      cases hb
                      simp
                have hm := many_check n cs
                rw [hlen] at hm
                show (checkArray false true false false (ofColumns n cs) >>= fun Xt => pure (rows Xt)).toOption = if _ then _ else _
                rw [bind_check _ _ _ hm, ← rows_ofColumns]
                rfl
    | array x =>
        cases p with
        | one k =>
            show (checkArray false true true false x >>= fun Xt => asIndex k >>= fun j => Mapper.projection (.one j) (rows Xt)).toOption = _
            rw [bind_check _ x _ (matrix_check x)]
            cases k with
            | int j => rfl
            | str s =>
                show (if IsMatrix x then none else none) = none
                split <;> rfl
        | many ks =>
            show (checkArray false true true false x >>= fun Xt => ks.mapM asIndex >>= fun js => Mapper.projection (.many js) (rows Xt)).toOption = _
            rw [bind_check _ x _ (matrix_check x), bind_toOption, mapM_toOption]
            have : (fun a => (asIndex a).toOption) = number := by
              funext k
              cases k <;> rfl
            rw [this]
            rfl

/-- **C122.** On a data frame, `transform` of a `Projection` looks at the selected columns only, and so do its failures. -/
theorem C122_projection_other_columns {K : Type} [Field K] [LinearOrder K] (o : Obj Cols) (n : Nat) (columns columns' : List (Key × List (Num K)))
    (h : ∀ k, (o.params = .one k ∨ ∃ ks, o.params = .many ks ∧ k ∈ ks) → column columns k = column columns' k) :
    call projectionCls o (.frame n columns) = call projectionCls o (.frame n columns') := by
  have hl : ∀ k, column columns k = column columns' k → lookup columns k = lookup columns' k := by
    intro k hk
    unfold column at hk
    unfold lookup
    cases h1 : columns.find? fun e => decide (e.1 = k) with
    | none =>
        cases h2 : columns'.find? fun e => decide (e.1 = k) with
        | none => rfl
        | some b => simp [h1, h2] at hk
    | some a =>
        cases h2 : columns'.find? fun e => decide (e.1 = k) with
        | none => simp [h1, h2] at hk
        | some b =>
            simp [h1, h2] at hk
            dsimp only
            rw [hk]
  unfold call
  cases o.isFitted with
  | false => rfl
  | true =>
      rw [if_pos rfl, if_pos rfl]
      cases hp : o.params with
      | one k =>
          show (lookup columns k >>= _) = (lookup columns' k >>= _)
          rw [hl k (h k (.inl hp))]
      | many ks =>
          show (ks.mapM (lookup columns) >>= _) = (ks.mapM (lookup columns') >>= _)
          have : ∀ (l : List Key), (∀ k ∈ l, k ∈ ks) → l.mapM (lookup columns) = l.mapM (lookup columns') := by
            intro l
            induction l with
            | nil => intro _; rfl
            | cons k l ih =>
                intro hk
                rw [List.mapM_cons, List.mapM_cons, hl k (h k (.inr ⟨ks, hp, hk k List.mem_cons_self⟩)), ih fun k' hk' => hk k' (List.mem_cons_of_mem _ hk')]
          rw [this ks fun _ hk => hk]

example : (column [(.str "a", [Num.fin (1 : ℚ)]), (.str "b", [.nan])] (.str "a")) = column [(.str "a", [.fin 1])] (.str "a") := by decide +kernel

/-- **C122, false of `fit_transform`.** The columns which are not selected matter to `fit`: a fitted `Projection` transforms a data frame with a missing value in another column, the same call of
`fit_transform` is an error. -/
theorem C122_refuted_other_columns : ∃ (columns good : List (Key × List (Num ℚ))) (p : Cols),
    call projectionCls (run projectionCls (new p) [.fit (.frame 1 good)]) (.frame 1 columns) = .ok [[1]] ∧
    (fitTransform projectionCls (new p) (.frame 1 columns)).2 = .error .valueError :=
  ⟨[(.str "a", [.fin 1]), (.str "b", [.nan])], [(.str "a", [.fin 5])], .one (.str "a"), by decide +kernel, by decide +kernel⟩

/-- **C122.** `PearsonDissimilarity` and `PermutationEntropy`: fitting accepts arrays of numbers with at least two axes and has no other effect than to permit `transform`; values depend on the
present parameters and the array only, for the latter not even on the number of jobs. -/
theorem C122_multivariate (tensor : ℕ+ → Arr ℝ → PyM (List (List (Option ℝ)))) :
    Behaves pearsonCls (fun _ => IsBatch) dissimilarities ∧ Behaves (permutationEntropyCls tensor) (fun _ => IsBatch) (permutationEntropies tensor) := by
  classical
  constructor
  · refine behaves_of _ _ _ (fun p X => check_unit _ X (batch_check X)) fun p X => ?_
    unfold dissimilarities
    show (checkArray false true true true X >>= _).toOption = _
    rw [bind_check _ X _ (batch_check X)]
    by_cases h : IsBatch X
    · rw [if_pos h, if_pos h]
      match X.shape with
      | [] => rfl
      | [_] => rfl
      | [_, _] => rfl
      | [_, _, m] => rfl
      | _ :: _ :: _ :: _ :: _ => rfl
    · rw [if_neg h, if_neg h]
  · refine behaves_of _ _ _ (fun p X => check_unit _ X (batch_check X)) fun p X => ?_
    unfold permutationEntropies
    show (checkArray false true true true X >>= _).toOption = _
    rw [bind_check _ X _ (batch_check X)]
    by_cases h : IsBatch X
    · rw [if_pos h, if_pos h]
      match X.shape with
      | [] => rfl
      | [_] => rfl
      | [_, _] => rfl
      | [_, _, m] =>
          show some (Series.permutationEntropyTransform (p : ℕ) (matrices X)) = _
          unfold Series.permutationEntropyTransform
          rw [C17_njobs_independent _ (fun A B => by simp [Series.permutationEntropy]) _ p.pos]
          simp [Series.permutationEntropy, Function.comp_def]
      | _ :: _ :: _ :: _ :: _ => rfl
    · rw [if_neg h, if_neg h]

/-- **C122.** `Resampler`, `SlidingWindow` and `Stationarizer` with their methods `transform` and `resample`: fitting checks the parameters and the array and has no other effect than to permit the
other methods. -/
theorem C122_series {K : Type} [Field K] [LinearOrder K] (log : K → K) :
    Behaves (resamplerCls (K := K)) (fun p X => IsSeries X ∧ 0 < p) resampled ∧
    Behaves (slidingCls (K := K)) (fun p X => IsSeries X ∧ 0 < p.1 ∧ 0 < p.2) windows ∧
    Behaves (stationarizerCls log) (fun p X => IsSeries X ∧ p ≠ .other) (returns log) := by
  classical
  refine ⟨?_, ?_, ?_⟩
  · refine behaves_of _ _ _ (fun p X => ?_) fun p x => ?_
    · exact (check_params _ X (series_check X) _).trans (and_congr_right' (by omega))
    · cases x with
      | transform X =>
          show (checkArray false true false true X >>= _).toOption = if _ then _ else _
          rw [bind_check _ X _ (series_check X)]
          by_cases h : IsSeries X
          · by_cases hp : p = 0
            · simp [h, hp]
              rfl
            · simp [h, hp, Nat.pos_of_ne_zero hp]
              rfl
          · simp [h]
      | resample y =>
          show (columnOr1d y >>= _).toOption = if _ then _ else _
          rw [bind_check _ _ _ (column_check y)]
          by_cases h : IsColumn y
          · by_cases hp : p = 0
            · simp [h, hp]
              rfl
            · simp [h, hp, Nat.pos_of_ne_zero hp]
              rfl
          · simp [h]
  · refine behaves_of _ _ _ (fun p X => ?_) fun p x => ?_
    · exact (check_params _ X (series_check X) _).trans (and_congr_right' (by omega))
    · cases x with
      | transform X =>
          show (checkArray false true false true X >>= _).toOption = if _ then _ else _
          rw [bind_check _ X _ (series_check X)]
          by_cases h : IsSeries X
          · by_cases hp : p.2 = 0
            · simp [h, hp]
              rfl
            · simp only [h, hp, Nat.pos_of_ne_zero hp, if_true, if_false, and_self, bind_toOption]
              cases TimeSeries.slidingTransform p.1 p.2 (entries X) <;> rfl
          · simp [h]
      | resample y =>
          show (columnOr1d y >>= _).toOption = if _ then _ else _
          rw [bind_check _ _ _ (column_check y)]
          by_cases h : IsColumn y
          · by_cases hp : p.2 = 0
            · simp [h, hp]
              rfl
            · simp [h, hp, Nat.pos_of_ne_zero hp]
              rfl
          · simp [h]
  · refine behaves_of _ _ _ (fun p X => ?_) fun p x => ?_
    · exact check_params _ X (series_check X) _
    · cases x with
      | transform X =>
          show (checkArray false true false true X >>= _).toOption = if _ then _ else _
          rw [bind_check _ X _ (series_check X)]
          congr 1
          by_cases hp : p = .ret
          · rw [if_pos hp, if_pos hp]
            show some (Result.rows _) = _
            congr 2
            rw [show pySlice (some 1) none 1 (entries X) = (entries X).tail by
              rw [show (some (1 : Int)) = some ((1 : Nat) : Int) from rfl, pySlice_from, List.drop_one]]
            unfold rowDiffs
            apply List.ext_getElem?
            intro i
            simp only [List.getElem?_zipWith]
            cases (entries X)[i]? with
            | none => rfl
            | some a =>
                cases (entries X).tail[i]? with
                | none => rfl
                | some b =>
                    simp only [Option.some.injEq]
                    apply List.ext_getElem?
                    intro j
                    simp only [List.getElem?_zipWith]
                    cases a[j]? <;> cases b[j]? <;> rfl
          · rw [if_neg hp, if_neg hp]
            show some (Result.rows _) = _
            congr 2
            unfold rowDiffs
            apply List.ext_getElem?
            intro i
            rw [← List.map_tail]
            simp only [List.getElem?_zipWith, List.getElem?_map]
            cases (entries X)[i]? with
            | none => rfl
            | some a =>
                cases (entries X).tail[i]? with
                | none => rfl
                | some b =>
                    simp only [Option.map_some, Option.some.injEq]
                    apply List.ext_getElem?
                    intro j
                    simp only [List.getElem?_zipWith, List.getElem?_map]
                    cases a[j]? <;> cases b[j]? <;> rfl
      | resample y =>
          show (columnOr1d y >>= _).toOption = if _ then _ else _
          rw [bind_check _ _ _ (column_check y)]
          congr 1
          show some (Result.targets (pySlice (some ((1 : Nat) : Int)) none 1 _)) = _
          rw [pySlice_from, List.drop_one]

/-- **C122.** `TakensEmbedding`: fitting checks the parameters and the collection and has no other effect than to permit `transform`. -/
theorem C122_takens {K : Type} [Field K] [LinearOrder K] (tensor : TakensParams → List Nat → List K → PyM (Embedded K)) :
    Behaves (takensCls tensor) (fun p X => IsCollection X ∧ 0 < p.timeDelay ∧ 0 < p.dimension ∧ 0 < p.stride) (embeddings tensor) := by
  classical
  refine behaves_of _ _ _ (fun p X => ?_) fun p X => ?_
  · exact (check_params _ _ (collection_check X) _).trans (and_congr_right' (by omega))
  · unfold embeddings
    show (checkCollection false true X >>= _).toOption = _
    rw [bind_check _ _ _ (collection_check X), iterate_asOutput]
    by_cases h : IsCollection X
    · by_cases hp : p.stride = 0 ∨ p.timeDelay = 0
      · rw [if_pos h, if_pos hp, if_neg (by omega)]
        rfl
      · rw [if_pos h, if_neg hp, if_pos ⟨h, by omega, by omega⟩]
    · rw [if_neg h, if_neg (fun k => h k.1)]

theorem Stateless.diagrams_check {K : Type} [Field K] [LinearOrder K] [FloorRing K] (X : Diagrams.Arr K) :
    (Diagrams.checkDiagrams X = .ok X → Diagrams.checkDiagrams X = .ok X) ∧ (¬ Diagrams.checkDiagrams X = .ok X → ∃ e, Diagrams.checkDiagrams X = .error e) := by
  refine ⟨fun h => h, fun h => ?_⟩
  cases hc : Diagrams.checkDiagrams X with
  | error e => exact ⟨e, rfl⟩
  | ok Y =>
      exfalso
      apply h
      rw [hc]
      unfold Diagrams.checkDiagrams at hc
      split_ifs at hc
      cases hm : List.mapM (Diagrams.checkDim ((((X.data.headD []).filterMap fun p => (p.getD 2 none)).dedup).insertionSort (· ≤ ·)).length)
          ((((X.data.headD []).filterMap fun p => (p.getD 2 none)).dedup).insertionSort (· ≤ ·)) with
      | error e =>
          simp only [hm] at hc
          cases hc
      | ok u =>
          simp only [hm, ok_bind] at hc
          split_ifs at hc
          exact hc.symm

/-- **C122.** `ForgetDimension` and `GraphGeodesicDistance`. The former accepts the arrays `check_diagrams` accepts (see C01); the latter's `fit` accepts everything. -/
theorem C122_diagrams_graphs {K : Type} [Field K] [LinearOrder K] [FloorRing K] (engine : Graphs.Engine K) :
    Behaves (forgetDimensionCls (K := K)) (fun _ X => Diagrams.checkDiagrams X = .ok X) (fun _ X => (Diagrams.checkDiagrams X).toOption.map forgotten) ∧
    Behaves (geodesicCls engine) (fun _ _ => True) (distances engine) := by
  classical
  constructor
  · refine behaves_of _ _ _ (fun p X => check_unit _ X (Stateless.diagrams_check X)) fun p X => ?_
    show (Diagrams.checkDiagrams X >>= _).toOption = _
    cases Diagrams.checkDiagrams X <;> rfl
  · refine behaves_of _ _ _ (fun p X => ⟨fun _ => trivial, fun _ => rfl⟩) fun p X => ?_
    show (X.mapM (Graphs.geodesic engine p) >>= _).toOption = _
    unfold distances
    cases X with
    | nil => rfl
    | cons x X =>
        rw [List.isEmpty_cons, if_neg (by simp), List.mapM_cons]
        cases Graphs.geodesic engine p x with
        | error e => rfl
        | ok a =>
            cases List.mapM (Graphs.geodesic engine p) X with
            | error e => rfl
            | ok b => rfl

/-- A history of a `Resampler`: refused, not fitted, then fitted with period 2, and used with period 3 afterwards. -/
example :
    let X : Arr ℚ := ⟨[4], [.fin 1, .fin 2, .fin 3, .fin 4], false⟩
    let bad : Arr ℚ := ⟨[2], [.fin 1, .nan], false⟩
    (fit (resamplerCls (K := ℚ)) (run (resamplerCls (K := ℚ)) (new 0) [.setParams 2]) bad).2 = .error .valueError ∧
    call (resamplerCls (K := ℚ)) (run (resamplerCls (K := ℚ)) (new 0) [.fit X, .setParams 2, .fit bad]) (.transform X) = .error .notFitted ∧
    call (resamplerCls (K := ℚ)) (run (resamplerCls (K := ℚ)) (new 0) [.setParams 2, .fit X, .fit bad, .setParams 3]) (.transform X) = .ok (.rows [[1], [4]]) := by
  refine ⟨?_, ?_, ?_⟩ <;> decide +kernel

example : IsSeries (⟨[2], [.fin (1 : ℚ), .fin 2], false⟩ : Arr ℚ) ∧ Fitted (C := Call ℚ) (fun p X => IsSeries X ∧ 0 < p) 0 [.setParams 2, .fit (⟨[2], [.fin (1 : ℚ), .fin 2], false⟩ : Arr ℚ)] := by
  have h : IsSeries (⟨[2], [.fin (1 : ℚ), .fin 2], false⟩ : Arr ℚ) := by
    refine ⟨rfl, ?_, .inl ⟨2, rfl, by decide⟩⟩
    intro a ha
    simp at ha
    rcases ha with rfl | rfl <;> exact ⟨_, rfl⟩
  exact ⟨h, .inl ⟨h, by decide⟩⟩

/-- **C122.** `KNeighborsGraph`: before the first accepted fit `transform` raises; afterwards it uses the present parameters, but it expects distance matrices if the metric was `'precomputed'` when
`fit` was called last, accepted or not. -/
theorem C122_knn {K : Type} [Field K] [LinearOrder K] (engine : Neighbors.Params K → Arr K → PyM (Neighbors.Graph K)) (order : List Nat) (p : Neighbors.Params K) (ops : List (KnnOp K))
    (X : Input K) :
    knnTransform engine order (knnRun (knnNew p) ops) X =
      if knnFitted p ops then Neighbors.transform engine (lastKind p none ops) (knnParams p ops) X order else .error .notFitted := by
  have key : ∀ (ops : List (KnnOp K)) (o : KnnObj K), (knnRun o ops).params = knnParams o.params ops ∧ (knnRun o ops).isPrecomputed = lastKind o.params o.isPrecomputed ops ∧
      (knnRun o ops).isFitted = (o.isFitted || knnFitted o.params ops) := by
    intro ops
    induction ops with
    | nil => intro o; exact ⟨rfl, rfl, by simp [knnRun, knnFitted]⟩
    | cons op ops ih =>
        intro o
        cases op with
        | setParams q => exact ih { o with params := q }
        | fit X =>
            obtain ⟨h1, h2, h3⟩ := ih (knnFit o X).1
            have e : (knnFit o X).1 = ⟨o.params, some o.params.metric.isNone, o.isFitted || (Neighbors.fit o.params X).isOk⟩ := by
              unfold knnFit Neighbors.fit
              cases hc : checkPointClouds true o.params.metric.isNone none X with
              | error e => simp [Except.isOk, Except.toBool, hc]
              | ok y => simp [Except.isOk, Except.toBool, hc]
            rw [e] at h1 h2 h3
            refine ⟨?_, ?_, ?_⟩
            · show (knnRun (knnFit o X).1 ops).params = _
              rw [e]; exact h1
            · show (knnRun (knnFit o X).1 ops).isPrecomputed = _
              rw [e]; exact h2
            · show (knnRun (knnFit o X).1 ops).isFitted = _
              rw [e, h3]
              show _ = (o.isFitted || ((Neighbors.fit o.params X).isOk || knnFitted o.params ops))
              rw [Bool.or_assoc]
  obtain ⟨h1, h2, h3⟩ := key ops (knnNew p)
  unfold knnTransform
  rw [h1, h2, h3]
  rfl

/-- **C122, part.** As long as no change of parameters changes whether the metric is `'precomputed'`, a `KNeighborsGraph` is stateless: after an accepted fit `transform` gives what a new object with
the present parameters gives after being fitted on any accepted data. -/
theorem C122_knn_partial {K : Type} [Field K] [LinearOrder K] (engine : Neighbors.Params K → Arr K → PyM (Neighbors.Graph K)) (order : List Nat) (p : Neighbors.Params K) (ops : List (KnnOp K))
    (X Y : Input K) (hs : SameKind p.metric.isNone ops) (hf : knnFitted p ops = true) (hY : (Neighbors.fit (knnParams p ops) Y).isOk = true) :
    knnTransform engine order (knnRun (knnNew p) ops) X = knnTransform engine order (knnRun (knnNew (knnParams p ops)) [.fit Y]) X := by
  have k1 : ∀ (ops : List (KnnOp K)) (q : Neighbors.Params K) (b : Bool) (k : Option Bool), q.metric.isNone = b → SameKind b ops →
      (knnParams q ops).metric.isNone = b ∧ ((k = some b ∨ knnFitted q ops = true) → lastKind q k ops = some b) := by
    intro ops
    induction ops with
    | nil =>
        intro q b k hq _
        refine ⟨hq, ?_⟩
        rintro (h | h)
        · exact h
        · cases h
    | cons op ops ih =>
        intro q b k hq h
        cases op with
        | setParams r => exact ih r b k h.1 h.2
        | fit Z =>
            obtain ⟨h1, h2⟩ := ih q b (some q.metric.isNone) hq h
            exact ⟨h1, fun _ => h2 (.inl (by rw [hq]))⟩
  obtain ⟨h1, h2⟩ := k1 ops p p.metric.isNone none rfl hs
  rw [C122_knn, C122_knn, if_pos hf, h2 (.inr hf)]
  have : knnFitted (knnParams p ops) [.fit Y] = true := by
    show ((Neighbors.fit (knnParams p ops) Y).isOk || false) = true
    rw [hY]; rfl
  rw [if_pos this]
  show _ = Neighbors.transform engine (some (knnParams p ops).metric.isNone) (knnParams p ops) X order
  rw [h1]

/-- Point clouds and parameters for the following examples. -/
def Stateless.cloud : Input ℚ := .array ⟨[1, 3, 2], [.fin 0, .fin 0, .fin 1, .fin 0, .fin 3, .fin 0], false⟩

/-- The metric of the following examples. -/
def Stateless.dist (a b : List ℚ) : ℚ := |a.headD 0 - b.headD 0|

example : SameKind false [KnnOp.setParams (⟨1, .connectivity, some Stateless.dist⟩ : Neighbors.Params ℚ), .fit Stateless.cloud] ∧
    knnFitted ⟨2, .connectivity, some Stateless.dist⟩ [KnnOp.setParams (⟨1, .connectivity, some Stateless.dist⟩ : Neighbors.Params ℚ), .fit Stateless.cloud] = true :=
  ⟨⟨rfl, trivial⟩, by decide +kernel⟩

/-- **C122, false of `KNeighborsGraph`.** (1) A fit which is refused changes what `transform` does: the object transformed the point clouds before and does not any more, with the same parameters.
(2) A change of `metric` after `fit` is followed only in part: distance matrices are then refused as point clouds would be, though a new object with the same parameters fitted on the same data
accepts them. -/
theorem C122_refuted_knn_stateless : ∃ (p q : Neighbors.Params ℚ) (X bad D : Input ℚ) (engine : Neighbors.Params ℚ → Arr ℚ → PyM (Neighbors.Graph ℚ)),
    (knnTransform engine [0] (knnRun (knnNew p) [.fit X]) X).isOk = true ∧
    (knnFit (knnRun (knnNew p) [.fit X, .setParams q]) bad).2 = .error .valueError ∧
    knnTransform engine [0] (knnRun (knnNew p) [.fit X, .setParams q, .fit bad, .setParams p]) X = .error .valueError ∧
    (knnTransform engine [0] (knnRun (knnNew q) [.fit D]) D).isOk = true ∧
    knnTransform engine [0] (knnRun (knnNew p) [.fit X, .setParams q]) D = .error .valueError :=
  ⟨⟨1, .connectivity, some Stateless.dist⟩, ⟨1, .connectivity, none⟩, Stateless.cloud, Stateless.cloud,
    .array ⟨[1, 3, 3], [.fin 0, .fin 1, .inf false, .fin 1, .fin 0, .fin 2, .inf false, .fin 2, .fin 0], false⟩,
    fun p x => if p.metric.isNone then .ok ⟨3, []⟩ else Neighbors.kneighborsGraph Neighbors.sortQuery (fun _ _ => .error .valueError) p x,
    by decide +kernel, by decide +kernel, by decide +kernel, by decide +kernel, by decide +kernel⟩

/-- **C122.** `TransitionGraph`: `transform` uses the function of the last accepted fit; before one it raises. -/
theorem C122_transition {K : Type} [Zero K] [LinearOrder K] (f : Func K) (ops : List (TgOp K)) (X : Input K) :
    tgTransform (tgRun ⟨f, none⟩ ops) X = tgTransform ⟨f, lastFunc f none ops⟩ X := by
  have key : ∀ (ops : List (TgOp K)) (o : TgObj K), (tgRun o ops).fitted = lastFunc o.func o.fitted ops := by
    intro ops
    induction ops with
    | nil => intro o; rfl
    | cons op ops ih =>
        intro o
        cases op with
        | setParams g => exact ih { o with func := g }
        | fit X =>
            have h := ih (tgFit o X).1
            have e : (tgFit o X).1 = ⟨o.func, if (checkPointClouds false false none X).isOk then (asFunction o.func).or o.fitted else o.fitted⟩ := by
              obtain ⟨g, b⟩ := o
              unfold tgFit
              cases checkPointClouds false false none X with
              | error e => simp [Except.isOk, Except.toBool]
              | ok y => cases g <;> simp [Except.isOk, Except.toBool, asFunction] <;> rfl
            rw [e] at h
            show (tgRun (tgFit o X).1 ops).fitted = _
            rw [e]
            exact h
  have h := key ops ⟨f, none⟩
  unfold tgTransform
  rw [h]

/-- **C122, false of `TransitionGraph`.** A change of `func` after `fit` has no effect until the next fit: the result differs from that of a new object with the same parameters. -/
theorem C122_refuted_transition_parameters : ∃ (f g : Func ℚ) (X : Input ℚ),
    tgTransform (tgRun ⟨f, none⟩ [.fit X, .setParams g]) X = .ok [[[0, 1], [0, 0]]] ∧ tgTransform (tgRun ⟨g, none⟩ [.fit X]) X = .ok [[[0]]] :=
  ⟨.none, .function fun _ => [0], .array ⟨[1, 2, 1], [.fin 1, .fin 2], false⟩, by decide +kernel, by decide +kernel⟩

/-- **C122.** `ImageToPointCloud`: after a fit `transform` depends on the present images only. A fit is accepted exactly for arrays of finite numbers with two to four axes. -/
theorem C122_images {K : Type} [Field K] [LinearOrder K] [IsStrictOrderedRing K] (o : ImgObj) (X Y Z : ImgInput K) :
    ((imgFit o X).2 = .ok () ↔ IsBatch X.arr ∧ X.arr.shape.length ≤ 4 ∧ ∃ x, X = .ndarray x) ∧
    ((imgFit o X).2 = .ok () → (imgFit o Y).2 = .ok () → imgTransform (imgFit o X).1 Z = imgTransform (imgFit o Y).1 Z) := by
  have h1 : ∀ X : ImgInput K, ((imgFit o X).2 = .ok () ↔ IsBatch X.arr ∧ X.arr.shape.length ≤ 4 ∧ ∃ x, X = .ndarray x) := by
    intro X
    unfold imgFit
    by_cases h : IsBatch X.arr
    · rw [(batch_check _).1 h]
      cases X with
      | nested x => simp
      | ndarray x =>
          dsimp only [ImgInput.arr]
          by_cases hd : 3 < x.shape.length - 1
          · rw [if_pos hd]
            simp
            intro _
            omega
          · rw [if_neg hd]
            simp
            exact ⟨h, by omega⟩
    · obtain ⟨e, he⟩ := (batch_check _).2 h
      rw [he]
      simp [h]
  have h2 : ∀ X : ImgInput K, (imgFit o X).2 = .ok () → ∃ d, (imgFit o X).1 = { o with nDimensions := some d } := by
    intro X hX
    obtain ⟨hb, hl, x, rfl⟩ := (h1 X).1 hX
    unfold imgFit
    rw [(batch_check _).1 hb]
    dsimp only [ImgInput.arr] at hl ⊢
    rw [if_neg (by omega)]
    exact ⟨_, rfl⟩
  refine ⟨h1 X, fun hX hY => ?_⟩
  obtain ⟨d, hd⟩ := h2 X hX
  obtain ⟨d', hd'⟩ := h2 Y hY
  rw [hd, hd']
  rfl

example : (imgFit ⟨1, none⟩ (.ndarray (⟨[1, 2, 2], [.fin 0, .fin 1, .fin 0, .fin 0], false⟩ : Arr ℚ))).2 = .ok () := by decide +kernel

/-- **C122, false of `ImageToPointCloud`.** A new object whose `fit` has raised counts as fitted: it transforms images afterwards, while a new object raises `NotFittedError`. -/
theorem C122_refuted_failed_fit : ∃ X Y : ImgInput ℚ,
    (imgFit ⟨1, none⟩ X).2 = .error .valueError ∧ imgTransform ⟨1, none⟩ Y = .error .notFitted ∧ imgTransform (imgFit ⟨1, none⟩ X).1 Y = .ok [[[1, 1]]] :=
  ⟨.ndarray ⟨[1, 1, 1, 1, 1], [.fin 0], false⟩, .ndarray ⟨[1, 2, 2], [.fin 0, .fin 1, .fin 0, .fin 0], false⟩, by decide +kernel, by decide +kernel, by decide +kernel⟩

end Gtda.Props
