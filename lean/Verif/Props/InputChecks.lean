import Mathlib.Data.List.Basic
import Verif.Lemmas.List
import Verif.Model.InputChecks
import Verif.Spec.InputChecks

/-!
# Properties of the validation of collections (C96, C97)
-/

set_option autoImplicit false

namespace Gtda

open Py Checks Spec.Checks

section

variable {K : Type}

theorem good_finite (l : List (Num K)) : GoodEntries true l ↔ l.all Num.isFinite = true := by
  unfold GoodEntries
  rw [List.all_eq_true]
  constructor
  · rintro ⟨h1, h2⟩ x hx
    cases x with
    | fin => rfl
    | inf b => exact absurd hx (h2 rfl b)
    | nan => exact absurd hx h1
  · intro h
    refine ⟨fun hx => ?_, fun _ b hx => ?_⟩
    · exact absurd (h _ hx) (by simp [Num.isFinite])
    · exact absurd (h _ hx) (by simp [Num.isFinite])

theorem good_any (l : List (Num K)) : GoodEntries false l ↔ l.any Num.isNaN = false := by
  unfold GoodEntries
  rw [List.any_eq_false]
  constructor
  · rintro ⟨h1, _⟩ x hx
    cases x with
    | fin => simp [Num.isNaN]
    | inf b => simp [Num.isNaN]
    | nan => exact absurd hx h1
  · intro h
    refine ⟨fun hx => ?_, fun e => by cases e⟩
    exact absurd (h _ hx) (by simp [Num.isNaN])

/-- The condition on the shape that `check_array` imposes. -/
def shapeOk (ensure2d allowNd : Bool) (x : Arr K) : Bool :=
  !(!x.sparse && ensure2d && decide (x.shape.length < 2)) &&
  !(!allowNd && decide (3 ≤ x.shape.length)) &&
  match x.shape with
  | [] => false
  | [n] => decide (1 ≤ n)
  | [n, m] => decide (1 ≤ n) && decide (1 ≤ m)
  | n :: _ => decide (1 ≤ n)

theorem checkArray_spec (acceptSparse forceFinite ensure2d allowNd : Bool) (x : Arr K)
    (hs : x.sparse = true → acceptSparse = true) (h0 : ensure2d = true ∨ x.shape ≠ [])
    (h2 : x.sparse = true → x.shape.length = 2) :
    (shapeOk ensure2d allowNd x = true ∧ (forceFinite = true → x.data.all Num.isFinite = true) →
      checkArray acceptSparse forceFinite ensure2d allowNd x = .ok x) ∧
    (¬ (shapeOk ensure2d allowNd x = true ∧ (forceFinite = true → x.data.all Num.isFinite = true)) →
      checkArray acceptSparse forceFinite ensure2d allowNd x = .error .valueError) := by
  obtain ⟨shape, data, sparse⟩ := x
  simp only at hs h0 h2
  unfold checkArray shapeOk
  simp only
  have e1 : (sparse && !acceptSparse) = false := by
    cases sparse with
    | false => rfl
    | true => rw [hs rfl]; rfl
  rw [e1]
  simp only [Bool.false_eq_true, if_false]
  by_cases c1 : (!sparse && ensure2d && decide (shape.length < 2)) = true
  · rw [if_pos c1, c1]
    simp
  · rw [Bool.not_eq_true] at c1
    rw [if_neg (by simp [c1]), c1]
    by_cases c2 : (!allowNd && decide (3 ≤ shape.length)) = true
    · rw [if_pos c2, c2]
      simp
    · rw [Bool.not_eq_true] at c2
      rw [if_neg (by simp [c2]), c2]
      by_cases c3 : (forceFinite && !data.all Num.isFinite) = true
      · rw [if_pos c3]
        rw [Bool.and_eq_true, Bool.not_eq_true'] at c3
        simp [c3]
      · rw [if_neg c3]
        have c3' : forceFinite = true → data.all Num.isFinite = true := by
          intro hf
          rw [hf, Bool.true_and, Bool.not_eq_true', Bool.not_eq_false] at c3
          exact c3
        simp only [Bool.not_false, Bool.true_and, and_iff_left c3']
        match shape, h0, c1, h2 with
        | [], h0, c1, h2 =>
            exfalso
            rcases h0 with h | h
            · cases sparse with
              | true => simpa using h2 rfl
              | false => simp [h] at c1
            · exact h rfl
        | [n], _, _, _ =>
            constructor
            · intro h
              rw [decide_eq_true_eq] at h
              simp only
              rw [if_neg (by omega)]
              rfl
            · intro h
              rw [decide_eq_true_eq] at h
              simp only
              rw [if_pos (by omega)]
        | [n, m], _, _, _ =>
            constructor
            · intro h
              rw [Bool.and_eq_true, decide_eq_true_eq, decide_eq_true_eq] at h
              simp only
              rw [if_neg (by omega), if_neg (by omega)]
              rfl
            · intro h
              rw [Bool.and_eq_true, decide_eq_true_eq, decide_eq_true_eq] at h
              simp only
              by_cases hn : n < 1
              · rw [if_pos hn]
              · rw [if_neg hn, if_pos (by omega)]
        | n :: m :: k :: rest, _, _, _ =>
            constructor
            · intro h
              rw [decide_eq_true_eq] at h
              simp only
              rw [if_neg (by omega)]
              rfl
            · intro h
              rw [decide_eq_true_eq] at h
              simp only
              rw [if_pos (by omega)]

theorem checkArrayMod_spec (acceptSparse forceFinite ensure2d allowNd : Bool) (x : Arr K)
    (hs : x.sparse = true → acceptSparse = true) (h0 : ensure2d = true ∨ x.shape ≠ [])
    (h2 : x.sparse = true → x.shape.length = 2) :
    (shapeOk ensure2d allowNd x = true ∧ GoodEntries forceFinite x.data →
      checkArrayMod acceptSparse forceFinite ensure2d allowNd x = .ok x) ∧
    (¬ (shapeOk ensure2d allowNd x = true ∧ GoodEntries forceFinite x.data) →
      checkArrayMod acceptSparse forceFinite ensure2d allowNd x = .error .valueError) := by
  obtain ⟨k1, k2⟩ := checkArray_spec acceptSparse forceFinite ensure2d allowNd x hs h0 h2
  unfold checkArrayMod
  cases forceFinite with
  | true =>
      simp only [Bool.not_true, Bool.false_eq_true, if_false]
      rw [good_finite]
      simp only [forall_const] at k1 k2
      exact ⟨k1, k2⟩
  | false =>
      simp only [Bool.not_false, if_true]
      rw [good_any]
      simp only [Bool.false_eq_true, false_imp_iff, and_true] at k1 k2
      constructor
      · rintro ⟨h1, h3⟩
        rw [k1 h1, ok_bind, h3]
        rfl
      · intro h
        by_cases h1 : shapeOk ensure2d allowNd x = true
        · rw [k1 h1, ok_bind]
          rw [if_pos]
          by_contra h3
          exact h ⟨h1, by simpa using h3⟩
        · rw [k2 h1]
          rfl

/-- What the check of one entry of a list amounts to. -/
theorem checkCloud_spec (acceptSparse finite distance : Bool) (x : Arr K)
    (hs : x.sparse = true → acceptSparse = true ∧ x.shape.length = 2) :
    (GoodCloud finite distance x → checkCloud acceptSparse finite distance x = .ok x) ∧
    (¬ GoodCloud finite distance x →
      checkCloud acceptSparse finite distance x = .error .valueError) := by
  obtain ⟨k1, k2⟩ := checkArrayMod_spec acceptSparse finite true false x (fun h => (hs h).1)
    (.inl rfl) (fun h => (hs h).2)
  have hshape : shapeOk true false x = true ↔ ∃ r c, x.shape = [r, c] ∧ 1 ≤ r ∧ 1 ≤ c := by
    unfold shapeOk
    match hx : x.shape with
    | [] => simp
    | [n] =>
        cases hsp : x.sparse with
        | false => simp
        | true =>
            have := (hs hsp).2
            rw [hx] at this
            simp at this
    | [n, m] => simp
    | n :: m :: k :: rest => simp
  unfold checkCloud
  constructor
  · rintro ⟨⟨r, c, e, hr, hc, hsq⟩, hd⟩
    rw [k1 ⟨hshape.mpr ⟨r, c, e, hr, hc⟩, hd⟩, ok_bind]
    by_cases hcond : (distance && !x.sparse) = true
    · rw [if_pos hcond]
      rw [Bool.and_eq_true, Bool.not_eq_true'] at hcond
      have : isSquare x = .ok true := by
        unfold isSquare
        rw [e, hsq hcond.1 hcond.2]
        simp [pure, Except.pure]
      rw [this]
      rfl
    · rw [if_neg hcond]
      rfl
  · intro h
    by_cases hg : shapeOk true false x = true ∧ GoodEntries finite x.data
    · rw [k1 hg, ok_bind]
      obtain ⟨r, c, e, hr, hc⟩ := hshape.mp hg.1
      have hcond : distance = true ∧ x.sparse = false ∧ r ≠ c := by
        by_contra hn
        refine h ⟨⟨r, c, e, hr, hc, fun h1 h2 => ?_⟩, hg.2⟩
        by_contra hne
        exact hn ⟨h1, h2, hne⟩
      have : isSquare x = .ok false := by
        unfold isSquare
        rw [e]
        simp [pure, Except.pure, hcond.2.2]
      rw [if_pos (by simp [hcond.1, hcond.2.1]), this]
      rfl
    · rw [k2 hg]
      rfl

theorem checkEntries_spec (check : Arr K → PyM (Arr K)) (P : Arr K → Prop) (l : List (Arr K))
    (h : ∀ x ∈ l, (P x → check x = .ok x) ∧ (¬ P x → check x = .error .valueError))
    (failed : Bool) (acc : List (Arr K)) :
    ∃ checked, checkEntries check l failed acc = .ok checked ∧
      ((∀ x ∈ l, P x) → checked = (failed, acc ++ l)) ∧
      ((∃ x ∈ l, ¬ P x) → checked.1 = true) ∧ (failed = true → checked.1 = true) := by
  induction l generalizing failed acc with
  | nil =>
      exact ⟨(failed, acc), rfl, by simp, by simp, fun h => h⟩
  | cons x l ih =>
      have ih' := fun f a => ih (fun y hy => h y (by simp [hy])) f a
      obtain ⟨h1, h2⟩ := h x (by simp)
      by_cases hp : P x
      · obtain ⟨c, e, a1, a2, a3⟩ := ih' failed (acc ++ [x])
        refine ⟨c, ?_, ?_, ?_, a3⟩
        · rw [checkEntries, h1 hp]
          exact e
        · intro hall
          rw [a1 fun y hy => hall y (by simp [hy])]
          simp
        · rintro ⟨y, hy, hny⟩
          rcases List.mem_cons.mp hy with rfl | hy
          · exact absurd hp hny
          · exact a2 ⟨y, hy, hny⟩
      · obtain ⟨c, e, a1, a2, a3⟩ := ih' true acc
        refine ⟨c, ?_, ?_, fun _ => a3 rfl, fun _ => a3 rfl⟩
        · rw [checkEntries, h2 hp]
          exact e
        · intro hall
          exact absurd (hall x (by simp)) hp

/-- Whether the first two axes have the same length. -/
def sq (x : Arr K) : Bool :=
  match x.shape with
  | n :: m :: _ => n == m
  | _ => false

theorem mapM_pure_of {α β : Type} (f : α → PyM β) (g : α → β) (l : List α)
    (h : ∀ x ∈ l, f x = .ok (g x)) : l.mapM f = .ok (l.map g) := by
  induction l with
  | nil => rfl
  | cons x l ih =>
      rw [List.mapM_cons, h x (by simp), ok_bind, ih fun y hy => h y (by simp [hy]), ok_bind]
      rfl

/-- C96: a list of point clouds (or distance matrices) is accepted exactly if every entry is one;
otherwise a `ValueError` is raised, wherever the bad entries stand.  An accepted list of matrices of
one shape becomes a three-dimensional array with these matrices along the first axis (for sparse
matrices an array of objects), any other accepted list stays as it is.  The warning is given exactly
if distance matrices are not expected but all entries are square. -/
theorem C96_list (acceptSparse distance : Bool) (forceFinite : Option Bool) (l : List (Arr K))
    (hne : l ≠ []) (hs : ∀ x ∈ l, x.sparse = true → acceptSparse = true ∧ x.shape.length = 2) :
    ((∃ x ∈ l, ¬ GoodCloud (mustBeFinite distance forceFinite) distance x) →
      checkPointClouds acceptSparse distance forceFinite (.list l) = .error .valueError) ∧
    ((∀ x ∈ l, GoodCloud (mustBeFinite distance forceFinite) distance x) →
      ∃ warned out,
        checkPointClouds acceptSparse distance forceFinite (.list l) = .ok (warned, out) ∧
        (warned = true ↔ distance = false ∧ ∀ x ∈ l, ∃ n, x.shape = [n, n]) ∧
        ((∃ x ∈ l, ∃ y ∈ l, x.shape ≠ y.shape) → out = .list l) ∧
        ∀ rows cols, (∀ x ∈ l, x.shape = [rows, cols]) →
          ((∀ x ∈ l, x.sparse = false) → ∃ a, out = .array a ∧ Stacks l rows cols a) ∧
          ((∀ x ∈ l, x.sparse = true) → out = .objects l)) := by
  have hfin : (forceFinite.getD !distance) = mustBeFinite distance forceFinite := by
    cases forceFinite <;> rfl
  unfold checkPointClouds
  simp only [hfin]
  generalize mustBeFinite distance forceFinite = finite
  obtain ⟨checked, e, a1, a2, _⟩ := checkEntries_spec (checkCloud acceptSparse finite distance)
    (GoodCloud finite distance) l (fun x hx => checkCloud_spec _ _ _ x (hs x hx)) false []
  constructor
  · intro h
    rw [e, ok_bind]
    obtain ⟨f, c⟩ := checked
    simp only at a2 ⊢
    rw [a2 h]
    rfl
  · intro h
    rw [e, a1 h, ok_bind]
    simp only [Bool.false_eq_true, if_false, List.nil_append]
    have hsq : l.mapM isSquare = .ok (l.map sq) :=
      mapM_pure_of _ _ _ fun x hx => by
        obtain ⟨r, c, e, _⟩ := (h x hx).shape
        unfold isSquare sq
        rw [e]
        rfl
    rw [hsq, ok_bind]
    have hwarn : (!distance && (l.map sq).all id) = true ↔
        distance = false ∧ ∀ x ∈ l, ∃ n, x.shape = [n, n] := by
      rw [Bool.and_eq_true, Bool.not_eq_true', List.all_eq_true]
      refine and_congr_right fun _ => ?_
      constructor
      · intro hall x hx
        have := hall (sq x) (List.mem_map.mpr ⟨x, hx, rfl⟩)
        obtain ⟨r, c, e, _⟩ := (h x hx).shape
        unfold sq at this
        rw [e] at this
        simp only [id_eq, beq_iff_eq] at this
        exact ⟨r, by rw [e, this]⟩
      · intro hall b hb
        obtain ⟨x, hx, rfl⟩ := List.mem_map.mp hb
        obtain ⟨n, e⟩ := hall x hx
        unfold sq
        rw [e]
        simp
    cases l with
    | nil => exact absurd rfl hne
    | cons first rest =>
        by_cases hsame : (rest.all fun x => decide (x.shape = first.shape)) = true
        · simp only [hsame, if_true]
          refine ⟨_, _, rfl, hwarn, ?_, ?_⟩
          · rintro ⟨x, hx, y, hy, hxy⟩
            rw [List.all_eq_true] at hsame
            have key : ∀ z ∈ first :: rest, z.shape = first.shape := by
              intro z hz
              rcases List.mem_cons.mp hz with rfl | hz
              · rfl
              · simpa using hsame z hz
            exact absurd ((key x hx).trans (key y hy).symm) hxy
          · intro rows cols hrc
            constructor
            · intro hd
              refine ⟨⟨(first :: rest).length :: first.shape, ((first :: rest).map Arr.data).flatten,
                false⟩, ?_, ?_, rfl, ?_⟩
              · unfold stack
                simp only
                rw [if_neg]
                rw [List.any_eq_true]
                rintro ⟨x, hx, hxs⟩
                rw [hd x hx] at hxs
                cases hxs
              · simp only [hrc first (by simp)]
              · simp only [List.flatMap_def]
            · intro hd
              unfold stack
              simp only
              rw [if_pos]
              rw [List.any_eq_true]
              exact ⟨first, by simp, hd first (by simp)⟩
        · simp only [hsame]
          refine ⟨_, _, rfl, hwarn, fun _ => rfl, ?_⟩
          intro rows cols hrc
          exfalso
          apply hsame
          rw [List.all_eq_true]
          intro x hx
          rw [hrc x (by simp [hx]), hrc first (by simp)]
          simp

/-- C96: an array is accepted exactly if it is a three-dimensional array of point clouds or square
matrices; otherwise a `ValueError` is raised.  It is returned as it is. -/
theorem C96_array (acceptSparse distance : Bool) (forceFinite : Option Bool) (x : Arr K)
    (hs : x.sparse = true → acceptSparse = true ∧ x.shape.length = 2) :
    (¬ GoodArray (mustBeFinite distance forceFinite) distance x →
      checkPointClouds acceptSparse distance forceFinite (.array x) = .error .valueError) ∧
    (GoodArray (mustBeFinite distance forceFinite) distance x →
      ∃ warned, checkPointClouds acceptSparse distance forceFinite (.array x) =
          .ok (warned, .array x) ∧
        (warned = true ↔ distance = false ∧ ∃ n m, x.shape = [n, m, m])) := by
  have hfin : (forceFinite.getD !distance) = mustBeFinite distance forceFinite := by
    cases forceFinite <;> rfl
  unfold checkPointClouds
  simp only [hfin]
  generalize mustBeFinite distance forceFinite = finite
  obtain ⟨k1, k2⟩ := checkArrayMod_spec acceptSparse finite true true x (fun h => (hs h).1)
    (.inl rfl) (fun h => (hs h).2)
  have hshape : ∀ n r c, x.shape = [n, r, c] → (shapeOk true true x = true ↔ 1 ≤ n) := by
    intro n r c e
    unfold shapeOk
    rw [e]
    simp
  constructor
  · intro h
    match hx : x.shape with
    | [n, r, c] =>
        simp only
        by_cases hd : r ≠ c ∧ distance = true
        · rw [if_pos hd]
        · rw [if_neg hd, k2]
          · rfl
          · rintro ⟨h1, h2⟩
            refine h ⟨⟨n, r, c, hx, (hshape n r c hx).mp h1, fun hdt => ?_⟩, h2⟩
            by_contra hne
            exact hd ⟨hne, hdt⟩
    | [] => rfl
    | [_] => rfl
    | [_, _] => rfl
    | _ :: _ :: _ :: _ :: _ => rfl
  · rintro ⟨⟨n, r, c, hx, hn, hsq⟩, hd⟩
    rw [hx]
    simp only
    rw [if_neg (fun hc => hc.1 (hsq hc.2)), k1 ⟨(hshape n r c hx).mpr hn, hd⟩]
    refine ⟨_, rfl, ?_⟩
    rw [Bool.and_eq_true, decide_eq_true_eq, Bool.not_eq_true']
    constructor
    · rintro ⟨e, hd⟩
      exact ⟨hd, n, c, by rw [e]⟩
    · rintro ⟨hd, n', m, e⟩
      injection e with _ e
      injection e with e1 e
      injection e with e2 _
      exact ⟨e1.trans e2.symm, hd⟩

/-- C96: a three-dimensional array and the list of its entries are treated alike, if the entries have
rows and columns: both are refused, or the same array and the same warning come out. -/
theorem C96_slices (acceptSparse distance : Bool) (forceFinite : Option Bool) (l : List (Arr K))
    (hne : l ≠ []) (rows cols : Nat) (hr : 1 ≤ rows) (hc : 1 ≤ cols)
    (hl : ∀ x ∈ l, x.shape = [rows, cols] ∧ x.sparse = false) (a : Arr K)
    (ha : Stacks l rows cols a) :
    checkPointClouds acceptSparse distance forceFinite (.list l) =
      checkPointClouds acceptSparse distance forceFinite (.array a) := by
  obtain ⟨a1, a2, a3⟩ := ha
  obtain ⟨u1, u2⟩ := C96_list acceptSparse distance forceFinite l hne
    (fun x hx h => by rw [(hl x hx).2] at h; cases h)
  obtain ⟨v1, v2⟩ := C96_array acceptSparse distance forceFinite a
    (fun h => by rw [a2] at h; cases h)
  generalize mustBeFinite distance forceFinite = finite at *
  have hlen : 1 ≤ l.length := by
    cases l with
    | nil => exact absurd rfl hne
    | cons => simp
  have hent : GoodEntries finite a.data ↔ ∀ x ∈ l, GoodEntries finite x.data := by
    rw [a3]
    unfold GoodEntries
    simp only [List.mem_flatMap, not_exists, not_and]
    constructor
    · rintro ⟨h1, h2⟩ x hx
      exact ⟨h1 x hx, fun hf b => h2 hf b x hx⟩
    · intro h
      exact ⟨fun x hx => (h x hx).1, fun hf b x hx => (h x hx).2 hf b⟩
  have hiff : GoodArray finite distance a ↔ ∀ x ∈ l, GoodCloud finite distance x := by
    constructor
    · rintro ⟨⟨n, r, c, e, _, hsq⟩, hd⟩ x hx
      rw [a1] at e
      injection e with _ e
      injection e with e1 e
      injection e with e2 _
      refine ⟨⟨rows, cols, (hl x hx).1, hr, hc, fun h _ => ?_⟩, hent.mp hd x hx⟩
      rw [e1, e2]
      exact hsq h
    · intro h
      refine ⟨⟨l.length, rows, cols, a1, hlen, fun hd => ?_⟩, hent.mpr fun x hx => (h x hx).entries⟩
      obtain ⟨x, hx⟩ := List.exists_mem_of_ne_nil l hne
      obtain ⟨r, c, e, _, _, hsq⟩ := (h x hx).shape
      rw [(hl x hx).1] at e
      injection e with e1 e
      injection e with e2 _
      rw [e1, e2]
      exact hsq hd (hl x hx).2
  by_cases hg : GoodArray finite distance a
  · obtain ⟨w1, o1, p1, q1, _, q3⟩ := u2 (hiff.mp hg)
    obtain ⟨w2, p2, q2⟩ := v2 hg
    obtain ⟨b, rfl, b1, b2, b3⟩ := (q3 rows cols fun x hx => (hl x hx).1).1 fun x hx => (hl x hx).2
    have eb : b = a := by
      obtain ⟨bs, bd, bp⟩ := b
      obtain ⟨as, ad, ap⟩ := a
      simp only at a1 a2 a3 b1 b2 b3
      rw [a1, a2, a3, b1, b2, b3]
    have ew : w1 = w2 := by
      rw [Bool.eq_iff_iff, q1, q2]
      refine and_congr_right fun _ => ?_
      constructor
      · intro h
        obtain ⟨x, hx⟩ := List.exists_mem_of_ne_nil l hne
        obtain ⟨n, e⟩ := h x hx
        rw [(hl x hx).1] at e
        injection e with e1 e
        injection e with e2 _
        exact ⟨l.length, n, by rw [a1, e1, e2]⟩
      · rintro ⟨n, m, e⟩ x hx
        rw [a1] at e
        injection e with _ e
        injection e with e1 e
        injection e with e2 _
        exact ⟨m, by rw [(hl x hx).1, e1, e2]⟩
    rw [p1, p2, eb, ew]
  · rw [v1 hg, u1]
    by_contra hn
    refine hg (hiff.mpr fun x hx => ?_)
    by_contra hx'
    exact hn ⟨x, hx, hx'⟩

/-- C96 without the restriction fails: point clouds without points are refused in a list but
accepted in an array. -/
theorem C96_refuted_no_points (acceptSparse distance : Bool) (forceFinite : Option Bool)
    (samples cols : Nat) (h : 1 ≤ samples) (hd : distance = true → cols = 0) :
    (∃ w, checkPointClouds acceptSparse distance forceFinite
      (.array (⟨[samples, 0, cols], [], false⟩ : Arr K)) =
        .ok (w, .array ⟨[samples, 0, cols], [], false⟩)) ∧
    checkPointClouds acceptSparse distance forceFinite
      (.list (List.replicate samples (⟨[0, cols], [], false⟩ : Arr K))) = .error .valueError := by
  constructor
  · obtain ⟨w, e, _⟩ := (C96_array acceptSparse distance forceFinite
      (⟨[samples, 0, cols], [], false⟩ : Arr K) (by simp)).2
      ⟨⟨samples, 0, cols, rfl, h, fun hd' => (hd hd').symm⟩, by simp [GoodEntries]⟩
    exact ⟨w, e⟩
  · refine (C96_list acceptSparse distance forceFinite _ ?_ ?_).1 ⟨⟨[0, cols], [], false⟩, ?_, ?_⟩
    · intro e
      have := congrArg List.length e
      simp at this
      omega
    · intro x hx hxs
      rw [List.eq_of_mem_replicate hx] at hxs
      cases hxs
    · rw [List.mem_replicate]
      exact ⟨by omega, rfl⟩
    · rintro ⟨⟨r, c, e, hr, _⟩, _⟩
      simp only [List.cons.injEq] at e
      omega

/-- C96: an empty list is an `IndexError`, and a sparse matrix where none is accepted a
`TypeError` (unless an earlier entry is the first of another kind of error), not a `ValueError`. -/
theorem C96_other_errors (acceptSparse distance : Bool) (forceFinite : Option Bool) :
    checkPointClouds acceptSparse distance forceFinite (.list ([] : List (Arr K))) =
      .error .indexError ∧
    ∀ pre x post, (∀ y ∈ pre, y.sparse = false) → x.sparse = true →
      checkPointClouds (K := K) false distance forceFinite (.list (pre ++ x :: post)) =
        .error .typeError := by
  refine ⟨rfl, ?_⟩
  intro pre x post hpre hx
  unfold checkPointClouds
  simp only
  have hbad : ∀ f, checkCloud false f distance x = .error .typeError := by
    intro f
    unfold checkCloud checkArrayMod checkArray
    simp only [hx, Bool.not_false, Bool.and_true, if_true]
    cases f <;> rfl
  have key : ∀ f failed acc, checkEntries (checkCloud false f distance) (pre ++ x :: post) failed acc =
      .error .typeError := by
    intro f
    induction pre with
    | nil =>
        intro failed acc
        rw [List.nil_append, checkEntries, hbad]
    | cons y pre ih =>
        intro failed acc
        have ih' := ih fun z hz => hpre z (by simp [hz])
        obtain ⟨h1, h2⟩ := checkCloud_spec false f distance y
          (fun h => by rw [hpre y (by simp)] at h; cases h)
        rw [List.cons_append, checkEntries]
        by_cases hg : GoodCloud f distance y
        · rw [h1 hg]
          exact ih' _ _
        · rw [h2 hg]
          exact ih' _ _
  rw [key]
  rfl

/-! ## Collections of arrays -/

/-- C97: `check_collection` accepts a list exactly if each entry is an array with at least one axis
that is not empty and with admissible entries, and returns it as it is; it is never made into one
array.  (Arrays without axes are a `TypeError`, see below.) -/
theorem C97_list (acceptSparse finite : Bool) (l : List (Arr K))
    (hs : ∀ x ∈ l, x.sparse = true → acceptSparse = true ∧ x.shape.length = 2)
    (h0 : ∀ x ∈ l, x.shape ≠ []) :
    ((∃ x ∈ l, ¬ GoodItem finite x) →
      checkCollection acceptSparse finite (.list l) = .error .valueError) ∧
    ((∀ x ∈ l, GoodItem finite x) →
      checkCollection acceptSparse finite (.list l) = .ok (.list l)) := by
  have hitem : ∀ x ∈ l, (GoodItem finite x → checkArrayMod acceptSparse finite false true x = .ok x) ∧
      (¬ GoodItem finite x → checkArrayMod acceptSparse finite false true x = .error .valueError) := by
    intro x hx
    obtain ⟨k1, k2⟩ := checkArrayMod_spec acceptSparse finite false true x (fun h => (hs x hx h).1)
      (.inr (h0 x hx)) (fun h => (hs x hx h).2)
    have hiff : GoodItem finite x ↔ shapeOk false true x = true ∧ GoodEntries finite x.data := by
      constructor
      · rintro ⟨⟨n, rest, e, hn, hm⟩, hd⟩
        refine ⟨?_, hd⟩
        unfold shapeOk
        rw [e]
        match rest, hm with
        | [], _ => simpa using hn
        | [m], hm => simpa using ⟨hn, hm m rfl⟩
        | _ :: _ :: _, _ => simpa using hn
      · rintro ⟨h, hd⟩
        refine ⟨?_, hd⟩
        unfold shapeOk at h
        match hx' : x.shape with
        | [] => exact absurd hx' (h0 x hx)
        | [n] =>
            rw [hx'] at h
            exact ⟨n, [], rfl, by simpa using h, by simp⟩
        | [n, m] =>
            rw [hx'] at h
            have h' : 1 ≤ n ∧ 1 ≤ m := by simpa using h
            exact ⟨n, [m], rfl, h'.1, fun k hk => by
              injection hk with hk
              omega⟩
        | n :: m :: k :: rest =>
            rw [hx'] at h
            exact ⟨n, m :: k :: rest, rfl, by simpa using h, by simp⟩
    exact ⟨fun h => k1 (hiff.mp h), fun h => k2 fun h' => h (hiff.mpr h')⟩
  obtain ⟨checked, e, a1, a2, _⟩ := checkEntries_spec (checkArrayMod acceptSparse finite false true)
    (GoodItem finite) l hitem false []
  unfold checkCollection
  simp only
  rw [e, ok_bind]
  constructor
  · intro h
    obtain ⟨f, c⟩ := checked
    simp only at a2 ⊢
    rw [a2 h]
    rfl
  · intro h
    rw [a1 h]
    rfl

/-- C97: an array is accepted exactly if it has at least two axes, is not empty along the first (nor
along the second, if there are two) and has admissible entries; it is returned as it is. -/
theorem C97_array (acceptSparse finite : Bool) (x : Arr K)
    (hs : x.sparse = true → acceptSparse = true ∧ x.shape.length = 2) :
    (GoodItem finite x ∧ 2 ≤ x.shape.length →
      checkCollection acceptSparse finite (.array x) = .ok (.array x)) ∧
    (¬ (GoodItem finite x ∧ 2 ≤ x.shape.length) →
      checkCollection acceptSparse finite (.array x) = .error .valueError) := by
  obtain ⟨k1, k2⟩ := checkArrayMod_spec acceptSparse finite true true x (fun h => (hs h).1)
    (.inl rfl) (fun h => (hs h).2)
  have hiff : (GoodItem finite x ∧ 2 ≤ x.shape.length) ↔
      shapeOk true true x = true ∧ GoodEntries finite x.data := by
    constructor
    · rintro ⟨⟨⟨n, rest, e, hn, hm⟩, hd⟩, h2⟩
      refine ⟨?_, hd⟩
      unfold shapeOk
      rw [e] at h2 ⊢
      match rest, hm, h2 with
      | [], _, h2 => simp at h2
      | [m], hm, _ => simpa using ⟨hn, hm m rfl⟩
      | _ :: _ :: _, _, _ => simpa using hn
    · rintro ⟨h, hd⟩
      unfold shapeOk at h
      match hx' : x.shape with
      | [] =>
          rw [hx'] at h
          simp at h
      | [n] =>
          exfalso
          cases hsp : x.sparse with
          | true =>
              have := (hs hsp).2
              rw [hx'] at this
              simp at this
          | false =>
              rw [hx', hsp] at h
              simp at h
      | [n, m] =>
          rw [hx'] at h
          have h' : 1 ≤ n ∧ 1 ≤ m := by simpa using h
          exact ⟨⟨⟨n, [m], hx', h'.1, fun k hk => by
            injection hk with hk
            omega⟩, hd⟩, by simp⟩
      | n :: m :: k :: rest =>
          rw [hx'] at h
          exact ⟨⟨⟨n, m :: k :: rest, hx', by simpa using h, by simp⟩, hd⟩, by simp⟩
  unfold checkCollection
  simp only
  constructor
  · intro h
    rw [k1 (hiff.mp h)]
    rfl
  · intro h
    rw [k2 fun h' => h (hiff.mpr h')]
    rfl

/-- C97: an array without axes in a list is a `TypeError`, although other bad entries give a
`ValueError`. -/
theorem C97_no_axes (acceptSparse finite : Bool) (v : Num K) (rest : List (Arr K))
    (hfin : finite = true → ∃ x, v = .fin x) :
    checkCollection acceptSparse finite (.list (⟨[], [v], false⟩ :: rest)) = .error .typeError := by
  have hv : finite = true → v.isFinite = true := by
    intro h
    obtain ⟨x, rfl⟩ := hfin h
    rfl
  unfold checkCollection
  simp only
  have : checkArrayMod acceptSparse finite false true (⟨[], [v], false⟩ : Arr K) =
      .error .typeError := by
    unfold checkArrayMod checkArray
    cases finite with
    | true =>
        simp [hv rfl]
    | false =>
        simp
  rw [checkEntries, this]
  rfl

end

/-! ## Concrete cases -/

example : GoodCloud (K := Int) true false ⟨[2, 1], [.fin 3, .fin (-1)], false⟩ :=
  ⟨⟨2, 1, rfl, by decide, by decide, by simp⟩, by unfold GoodEntries; decide +kernel⟩

-- Two clouds of one shape become an array, two of different shapes stay a list.
example :
    checkPointClouds (K := Int) false false none
        (.list [⟨[1, 2], [.fin 3, .fin 4], false⟩, ⟨[1, 2], [.fin 5, .fin 6], false⟩]) =
      .ok (false, .array ⟨[2, 1, 2], [.fin 3, .fin 4, .fin 5, .fin 6], false⟩) ∧
    checkPointClouds (K := Int) false true none
        (.list [⟨[1, 1], [.inf false], false⟩, ⟨[2, 2], [.fin 0, .fin 1, .fin 1, .fin 0], false⟩]) =
      .ok (false, .list [⟨[1, 1], [.inf false], false⟩,
        ⟨[2, 2], [.fin 0, .fin 1, .fin 1, .fin 0], false⟩]) ∧
    checkPointClouds (K := Int) false false none (.list [⟨[1, 1], [.inf false], false⟩]) =
      .error .valueError := by
  decide +kernel

example : GoodItem (K := Int) false ⟨[2], [.fin 3, .inf true], false⟩ ∧
    checkCollection (K := Int) false false
        (.list [⟨[2], [.fin 3, .inf true], false⟩, ⟨[1, 1, 1], [.fin 7], false⟩]) =
      .ok (.list [⟨[2], [.fin 3, .inf true], false⟩, ⟨[1, 1, 1], [.fin 7], false⟩]) :=
  ⟨⟨⟨2, [], rfl, by decide, by simp⟩, by unfold GoodEntries; decide +kernel⟩, by decide +kernel⟩

end Gtda
