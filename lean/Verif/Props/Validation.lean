import Verif.Spec.Validation
import Mathlib.Data.Rat.Floor

set_option autoImplicit false

/-!
# C75: validation of parameters
-/

namespace Gtda.Props
open Gtda.Py Gtda.Validation Gtda.Spec

theorem forM_ok_iff {α : Type} (l : List α) (f : α → PyM Unit) : l.forM f = .ok () ↔ ∀ x ∈ l, f x = .ok () := by
  induction l with
  | nil => simp [List.forM, pure, Except.pure]
  | cons a t ih =>
    show (f a >>= fun _ => t.forM f) = .ok () ↔ _
    cases h : f a with
    | error e => simp [bind, Except.bind, h]
    | ok u =>
      have : (Except.ok u >>= fun _ => t.forM f) = t.forM f := rfl
      rw [this, ih]
      simp [h]

theorem forM_error {α : Type} (l : List α) (f : α → PyM Unit) (e : PyErr) (h : l.forM f = .error e) : ∃ x ∈ l, f x = .error e := by
  induction l with
  | nil => cases h
  | cons a t ih =>
    change (f a >>= fun _ => t.forM f) = .error e at h
    cases ha : f a with
    | error e' => rw [ha] at h; cases h; exact ⟨a, by simp, ha⟩
    | ok u =>
      rw [ha] at h
      obtain ⟨x, hx, h'⟩ := ih h
      exact ⟨x, by simp [hx], h'⟩

theorem isContainer_iff (v : PyVal) : Validation.isContainer v = true ↔ Spec.IsContainer v := by
  constructor
  · intro h
    cases v <;> first | exact .list _ | exact .tuple _ | exact .ndarray _ | exact .dict _ | simp [isContainer, typesTuple, isinstance] at h
  · rintro (_ | _ | _ | _) <;> simp [isContainer, typesTuple, isinstance]

theorem isinstance_iff (v : PyVal) (t : PyType) : isinstance v t = true ↔ InstanceOf v t := by
  constructor
  · intro h
    cases v <;> cases t <;> first | (simp [isinstance] at h; done) | constructor | (simp only [isinstance, beq_iff_eq] at h; subst h; constructor)
  · rintro ⟨⟩ <;> simp [isinstance]

theorem mem_elems (x v : PyVal) : x ∈ elems v ↔ IsElement x v := by
  constructor
  · intro h
    cases v with
    | list l => exact .list l h
    | tuple l => exact .tuple l h
    | ndarray l => exact .ndarray l h
    | dict l =>
      simp only [elems, List.mem_map] at h
      obtain ⟨⟨n, y⟩, hp, rfl⟩ := h
      exact .key l n y hp rfl
    | _ => simp [elems] at h
  · intro h
    cases h with
    | list l h => exact h
    | tuple l h => exact h
    | ndarray l h => exact h
    | key l n y h hx => subst hx; exact List.mem_map.mpr ⟨(n, y), h, rfl⟩

theorem mem_items (n : String) (x v : PyVal) : (n, x) ∈ items v ↔ IsEntry n x v := by
  constructor
  · intro h
    cases v with
    | dict l => exact .dict l h
    | _ => simp [items] at h
  · rintro ⟨l, h⟩
    exact h

theorem hasType_iff (t : Option TypeSpec) (v : PyVal) : typeOk t v = true ↔ HasType t v := by
  rcases t with _ | (t | ts) <;> simp [HasType, typeOk, isinstanceSpec, isinstance_iff]

theorem container_of_spec (t : TypeSpec) (v : PyVal) (h : HasType (some t) v) (hc : specIsContainer t = true) : Spec.IsContainer v := by
  cases t with
  | many ts => simp [specIsContainer] at hc
  | one t =>
    rw [← isContainer_iff]
    unfold isContainer
    rw [List.any_eq_true]
    exact ⟨t, by simpa [specIsContainer] using hc, (isinstance_iff v t).mpr h⟩

/-- The three outcomes of the check of a single value. -/
theorem single_spec (type : Option TypeSpec) (adm : Option (PyVal → Bool)) (other : Option (PyVal → PyM Unit)) (of : Of) (v : PyVal) :
    (∀ b, single (.mk type adm other of) v = .ok b → HasType type v ∧
      (¬ Spec.IsContainer v → b = false ∧ (v = .none ∨ ∀ p, adm = some p → p v = true) ∧ ∀ f, other = some f → f v = .ok ()) ∧
      (Spec.IsContainer v → b = type.isSome)) ∧
    (∀ e, single (.mk type adm other of) v = .error e →
      (e = .typeError ∧ ¬ HasType type v) ∨ (e = .valueError ∧ ¬ Spec.IsContainer v ∧ v ≠ .none ∧ ∃ p, adm = some p ∧ p v = false) ∨
      (¬ Spec.IsContainer v ∧ ∃ f, other = some f ∧ f v = .error e)) := by
  unfold single
  simp only
  by_cases ht : typeOk type v = true
  · have hT := (hasType_iff type v).1 ht
    rw [if_neg (by rw [ht]; decide)]
    by_cases hc : Spec.IsContainer v
    · have : (declaredContainer type || isContainer v) = true := by
        rw [(isContainer_iff v).2 hc, Bool.or_true]
      rw [if_neg (by rw [this]; decide)]
      constructor
      · intro b hb
        cases hb
        exact ⟨hT, fun h => absurd hc h, fun _ => rfl⟩
      · intro e he; cases he
    · have hs : declaredContainer type = false := by
        cases type with
        | none => rfl
        | some t =>
          by_contra h
          exact hc (container_of_spec t v hT (by simpa [declaredContainer] using h))
      have hi : isContainer v = false := by
        by_contra h
        exact hc ((isContainer_iff v).1 (by simpa using h))
      rw [hs, hi, Bool.or_false, if_pos rfl]
      have hadm : (admCheck adm v = .ok () ∧ (v = .none ∨ ∀ p, adm = some p → p v = true)) ∨
          (admCheck adm v = .error .valueError ∧ v ≠ .none ∧ ∃ p, adm = some p ∧ p v = false) := by
        by_cases hv : v = .none
        · subst hv; exact .inl ⟨rfl, .inl rfl⟩
        · have : admCheck adm v = match adm with | none => pure () | some p => if p v then pure () else .error .valueError := by
            cases v <;> first | exact absurd rfl hv | rfl
          rw [this]
          cases adm with
          | none => exact .inl ⟨rfl, .inr (by simp)⟩
          | some q =>
            by_cases hq : q v = true
            · exact .inl ⟨if_pos hq, .inr (by rintro p hp; cases hp; exact hq)⟩
            · exact .inr ⟨if_neg hq, hv, q, rfl, by simpa using hq⟩
      rcases hadm with ⟨ha, hP⟩ | ⟨ha, hv, hp⟩
      · rw [ha]
        show (∀ b, (otherCheck other v >>= fun _ => (pure false : PyM Bool)) = .ok b → _) ∧ (∀ e, (otherCheck other v >>= fun _ => (pure false : PyM Bool)) = .error e → _)
        cases other with
        | none =>
          constructor
          · intro b hb; cases hb; exact ⟨hT, fun _ => ⟨rfl, hP, by simp⟩, fun h => absurd h hc⟩
          · intro e he; cases he
        | some f =>
          have hfo : otherCheck (some f) v = f v := rfl
          rw [hfo]
          cases hf : f v with
          | ok u =>
            constructor
            · intro b hb; cases hb; exact ⟨hT, fun _ => ⟨rfl, hP, by rintro g hg; cases hg; exact hf⟩, fun h => absurd h hc⟩
            · intro e he; cases he
          | error e' =>
            constructor
            · intro b hb; cases hb
            · intro e he; cases he; exact .inr (.inr ⟨hc, f, rfl, hf⟩)
      · rw [ha]
        constructor
        · intro b hb; cases hb
        · intro e he; cases he
          exact .inr (.inl ⟨rfl, hc, hv, hp⟩)
  · have hT : ¬ HasType type v := fun h => ht ((hasType_iff type v).2 h)
    rw [if_pos (by simpa using ht)]
    constructor
    · intro b hb; cases hb
    · intro e he; cases he; exact .inl ⟨rfl, hT⟩

/-- A head violation excludes validity. -/
theorem not_valid_head {type : Option TypeSpec} {adm : Option (PyVal → Bool)} {other : Option (PyVal → PyM Unit)} {of : Of} {v : PyVal} {e : PyErr}
    (h : (e = .typeError ∧ ¬ HasType type v) ∨ (e = .valueError ∧ ¬ Spec.IsContainer v ∧ v ≠ .none ∧ ∃ p, adm = some p ∧ p v = false) ∨
      (¬ Spec.IsContainer v ∧ ∃ f, other = some f ∧ f v = .error e)) : ¬ Valid (.mk type adm other of) v := by
  unfold Valid
  rintro ⟨h1, h2, -⟩
  rcases h with ⟨-, h⟩ | ⟨-, hc, hv, p, hp, hpv⟩ | ⟨hc, f, hf, hfv⟩
  · exact h h1
  · rcases (h2 hc).1 with h | h
    · exact hv h
    · rw [h p hp] at hpv; cases hpv
  · rw [(h2 hc).2 f hf] at hfv; cases hfv

/-- Elements of sequences are checked by `single`. -/
theorem single_flat (r : Ref) (hr : WellDeclaredOf false (.elem r)) (x : PyVal) :
    ((∃ b, single r x = .ok b) ↔ Valid r x) ∧ (∀ e, single r x = .error e → Violates e r x) := by
  obtain ⟨type, adm, other, of⟩ := r
  have hof : of = .none := by simpa [WellDeclaredOf] using hr
  subst hof
  obtain ⟨h1, h2⟩ := single_spec type adm other .none x
  refine ⟨?_, ?_⟩
  · constructor
    · rintro ⟨b, hb⟩
      obtain ⟨a1, a2, -⟩ := h1 b hb
      unfold Valid
      exact ⟨a1, fun h => (a2 h).2, fun _ _ => trivial⟩
    · intro hv
      cases hs : single (.mk type adm other .none) x with
      | ok b => exact ⟨b, rfl⟩
      | error e => exact absurd hv (not_valid_head (h2 e hs))
  · intro e he
    unfold Violates
    rcases h2 e he with h | h | h
    · exact .inl h
    · exact .inr (.inl h)
    · exact .inr (.inr (.inl h))

mutual
theorem checkParam_spec : ∀ (r : Ref) (v : PyVal), WellDeclared r → (checkParam r v = .ok () ↔ Valid r v) ∧ ∀ e, checkParam r v = .error e → Violates e r v
  | .mk type adm other of, v, hw => by
    obtain ⟨h1, h2⟩ := single_spec type adm other of v
    have hw' : WellDeclaredOf (decide (type = some (.one .dict))) of := hw
    obtain ⟨o1, o2⟩ := checkOf_spec of (decide (type = some (.one .dict))) v hw'
    unfold checkParam
    cases hs : single (.mk type adm other of) v with
    | error e =>
      refine ⟨⟨fun h => (by cases h), fun h => absurd h (not_valid_head (h2 e hs))⟩, ?_⟩
      intro e' he'
      cases he'
      unfold Violates
      rcases h2 _ hs with h | h | h
      · exact .inl h
      · exact .inr (.inl h)
      · exact .inr (.inr (.inl h))
    | ok b =>
      obtain ⟨a1, a2, a3⟩ := h1 b hs
      show ((if b = true then checkOf (decide (type = some (.one .dict))) of v else pure ()) = .ok () ↔ _) ∧
        ∀ e, (if b = true then checkOf (decide (type = some (.one .dict))) of v else pure ()) = .error e → _
      by_cases hc : Spec.IsContainer v
      · have hb := a3 hc
        cases type with
        | none =>
          subst hb
          refine ⟨?_, fun e he => by cases he⟩
          unfold Valid
          exact ⟨fun _ => ⟨a1, fun h => absurd hc h, fun _ h => absurd rfl h⟩, fun _ => rfl⟩
        | some t =>
          subst hb
          simp only [Option.isSome_some, if_true]
          refine ⟨?_, fun e he => ?_⟩
          · rw [o1]
            unfold Valid
            exact ⟨fun h => ⟨a1, fun h' => absurd hc h', fun _ _ => h⟩, fun h => h.2.2 hc (by simp)⟩
          · unfold Violates
            exact .inr (.inr (.inr ⟨hc, by simp, o2 e he⟩))
      · obtain ⟨hb, a4⟩ := a2 hc
        subst hb
        refine ⟨?_, fun e he => by cases he⟩
        unfold Valid
        exact ⟨fun _ => ⟨a1, fun _ => a4, fun h => absurd h hc⟩, fun _ => rfl⟩
theorem checkOf_spec : ∀ (of : Of) (d : Bool) (v : PyVal), WellDeclaredOf d of → (checkOf d of v = .ok () ↔ ValidOf of v) ∧ ∀ e, checkOf d of v = .error e → ViolatesOf e of v
  | .none, d, v, _ => by
    cases d
    all_goals
      unfold checkOf ValidOf
      exact ⟨⟨fun _ => trivial, fun _ => rfl⟩, fun e he => by cases he⟩
  | .elem r, d, v, hw => by
    cases d with
    | true => exact absurd hw (by unfold WellDeclaredOf; simp)
    | false =>
      unfold checkOf ValidOf ViolatesOf
      have key : ∀ x, ((do let _ ← single r x; pure ()) : PyM Unit) = .ok () ↔ ∃ b, single r x = .ok b := by
        intro x
        cases hs : single r x with
        | ok b => exact ⟨fun _ => ⟨b, rfl⟩, fun _ => rfl⟩
        | error e => exact ⟨fun h => (by cases h), fun ⟨b, h⟩ => by cases h⟩
      constructor
      · rw [forM_ok_iff]
        constructor
        · intro h x hx; exact ((single_flat r hw x).1).1 ((key x).1 (h x ((mem_elems x v).2 hx)))
        · intro h x hx; exact (key x).2 (((single_flat r hw x).1).2 (h x ((mem_elems x v).1 hx)))
      · intro e he
        obtain ⟨x, hx, h⟩ := forM_error _ _ _ he
        refine ⟨x, (mem_elems x v).1 hx, (single_flat r hw x).2 e ?_⟩
        cases hs : single r x with
        | ok b => rw [hs] at h; cases h
        | error e' => rw [hs] at h; cases h; rfl
  | .names rs, d, v, hw => by
    cases d with
    | false => exact absurd hw (by unfold WellDeclaredOf; simp)
    | true =>
      have hw' : WellDeclaredRefs rs := by simpa [WellDeclaredOf] using hw
      unfold checkOf ValidOf ViolatesOf
      constructor
      · rw [forM_ok_iff]
        constructor
        · intro h n x hp; exact (checkNamed_spec rs n x hw').1.1 (h (n, x) ((mem_items n x v).2 hp))
        · intro h p hp; exact (checkNamed_spec rs p.1 p.2 hw').1.2 (h p.1 p.2 ((mem_items p.1 p.2 v).1 hp))
      · intro e he
        obtain ⟨p, hp, h⟩ := forM_error _ _ _ he
        exact ⟨p.1, p.2, (mem_items p.1 p.2 v).1 hp, (checkNamed_spec rs p.1 p.2 hw').2 e h⟩
theorem checkNamed_spec : ∀ (rs : Refs) (n : String) (v : PyVal), WellDeclaredRefs rs → (checkNamed rs n v = .ok () ↔ ValidNamed rs n v) ∧ ∀ e, checkNamed rs n v = .error e → ViolatesNamed e rs n v
  | .nil, n, v, _ => by
    unfold checkNamed ValidNamed ViolatesNamed
    exact ⟨⟨fun h => (by cases h), fun h => h.elim⟩, fun e he => by cases he; rfl⟩
  | .cons m r rest, n, v, hw => by
    have hw' : WellDeclared r ∧ WellDeclaredRefs rest := by simpa [WellDeclaredRefs] using hw
    unfold checkNamed ValidNamed ViolatesNamed
    by_cases h : m = n
    · rw [if_pos h]
      obtain ⟨a, b⟩ := checkParam_spec r v hw'.1
      refine ⟨?_, fun e he => .inl ⟨h, b e he⟩⟩
      rw [a]; simp [h]
    · rw [if_neg h]
      obtain ⟨a, b⟩ := checkNamed_spec rest n v hw'.2
      refine ⟨?_, fun e he => .inr ⟨h, b e he⟩⟩
      rw [a]; simp [h]
  | .any m rest, n, v, hw => by
    have hw' : WellDeclaredRefs rest := by simpa [WellDeclaredRefs] using hw
    unfold checkNamed ValidNamed ViolatesNamed
    by_cases h : m = n
    · rw [if_pos h]
      refine ⟨⟨fun _ => .inl h, fun _ => rfl⟩, fun e he => by cases he⟩
    · rw [if_neg h]
      obtain ⟨a, b⟩ := checkNamed_spec rest n v hw'
      refine ⟨?_, fun e he => ⟨h, b e he⟩⟩
      rw [a]; simp [h]
end

/-- **C75.** For declarations as documented, `validate_params` returns silently iff every parameter that is not excluded is declared and satisfies its reference; otherwise it raises
an exception that stands for a violation of some parameter that is not excluded: `TypeError` for a wrong type, `ValueError` for a value outside the admissible set, `KeyError` for a
parameter that is not declared. Missing: elements of sequences whose own elements are restricted, see `C75_refuted_nested_sequences`. -/
theorem C75_validate_params_partial (params : List (String × PyVal)) (refs : Refs) (hw : WellDeclaredRefs refs) (exclude : List String) :
    (validateParams params refs exclude = .ok () ↔ ∀ p ∈ params, p.1 ∉ exclude → ValidNamed refs p.1 p.2) ∧
    (∀ e, validateParams params refs exclude = .error e → ∃ p ∈ params, p.1 ∉ exclude ∧ ViolatesNamed e refs p.1 p.2) := by
  unfold validateParams
  constructor
  · rw [forM_ok_iff]
    constructor
    · intro h p hp hx
      exact (checkNamed_spec refs p.1 p.2 hw).1.1 (h p (by simp [hp, hx]))
    · intro h p hp
      rw [List.mem_filter] at hp
      exact (checkNamed_spec refs p.1 p.2 hw).1.2 (h p hp.1 (by simpa using hp.2))
  · intro e he
    obtain ⟨p, hp, h⟩ := forM_error _ _ _ he
    rw [List.mem_filter] at hp
    exact ⟨p, hp.1, by simpa using hp.2, (checkNamed_spec refs p.1 p.2 hw).2 e h⟩

/-- The references used in the examples: those of the homology dimensions and of a Boolean parameter. -/
def exampleRefs : Refs := .cons "homology_dimensions" homologyDimensionsRef (.cons "reduced_homology" (.mk (some (.one .bool)) none none .none) .nil)

/-- Non-vacuity of C75. -/
example : WellDeclaredRefs exampleRefs := by
  simp [exampleRefs, homologyDimensionsRef, WellDeclaredRefs, WellDeclared, WellDeclaredOf]
example : validateParams [("homology_dimensions", .tuple [.int 0, .int 1]), ("reduced_homology", .bool true), ("n_jobs", .none)] exampleRefs ["n_jobs"] = .ok () := by decide +kernel
example : validateParams [("homology_dimensions", .tuple [.int 0, .int (-1)]), ("reduced_homology", .bool true)] exampleRefs [] = .error .valueError := by decide +kernel
example : validateParams [("homology_dimensions", .tuple [.int 0, .str "1"])] exampleRefs [] = .error .typeError := by decide +kernel
example : validateParams [("reduced_homology", .bool true), ("n_jobs", .none)] exampleRefs [] = .error .keyError := by decide +kernel

/-- **C75, false in general.** The elements of the elements of a sequence are not checked, although each entry should "satisfy the constraints" of its reference: a list of lists of
strings passes as a list of lists of integers. -/
theorem C75_refuted_nested_sequences : ∃ (r : Ref) (v : PyVal), checkParam r v = .ok () ∧ ¬ Valid r v := by
  refine ⟨.mk (some (.one .list)) none none (.elem (.mk (some (.one .list)) none none (.elem (.mk (some (.one .int)) none none .none)))), .list [.list [.str "a"]], by decide +kernel, ?_⟩
  intro h
  unfold Valid at h
  have h1 := h.2.2 (.list _) (by simp)
  unfold ValidOf at h1
  have h2 := h1 (.list [.str "a"]) (.list _ (by simp))
  unfold Valid at h2
  have h3 := h2.2.2 (.list _) (by simp)
  unfold ValidOf at h3
  have h4 := h3 (.str "a") (.list _ (by simp))
  unfold Valid at h4
  exact nomatch h4.1

/-- **C75, the documented type of `n_neighbors`.** The neighbour numbers are documented as integers, but their type is not checked: (1.5, 2.5) passes. -/
theorem C75_refuted_n_neighbors_type : checkParam nNeighborsRef (.tuple [.float (3/2), .float (5/2)]) = .ok () := by decide +kernel

/-- **C75, homology dimensions.** `homology_dimensions` is accepted if and only if it is a list or a tuple of integers at least 0 (Booleans are integers in Python). -/
theorem C75_homology_dimensions (v : PyVal) :
    checkParam homologyDimensionsRef v = .ok () ↔ ∃ l, (v = .list l ∨ v = .tuple l) ∧ ∀ x ∈ l, (∃ n : Nat, x = .int n) ∨ ∃ b, x = .bool b := by
  have key : ∀ x, Valid (.mk (some (.one .int)) (some nonneg) none .none) x ↔ (∃ n : Nat, x = .int n) ∨ ∃ b, x = .bool b := by
    intro x
    unfold Valid
    constructor
    · rintro ⟨h, h2, -⟩
      cases h with
      | boolInt b => exact .inr ⟨b, rfl⟩
      | int n =>
        have := (h2 nofun).1
        rcases this with h | h
        · cases h
        · have := h nonneg rfl
          simp only [nonneg, decide_eq_true_eq] at this
          exact .inl ⟨n.toNat, by rw [Int.toNat_of_nonneg this]⟩
    · rintro (⟨n, rfl⟩ | ⟨b, rfl⟩)
      · exact ⟨.int _, fun _ => ⟨.inr (by rintro p hp; cases hp; simp [nonneg]), nofun⟩, nofun⟩
      · exact ⟨.boolInt _, fun _ => ⟨.inr (by rintro p hp; cases hp; rfl), nofun⟩, nofun⟩
  rw [(checkParam_spec _ v (by simp [homologyDimensionsRef, WellDeclared, WellDeclaredOf])).1]
  unfold homologyDimensionsRef Valid ValidOf
  simp only [key]
  constructor
  · rintro ⟨⟨t, ht, h⟩, -, h3⟩
    simp only [List.mem_cons, List.not_mem_nil, or_false] at ht
    rcases ht with rfl | rfl
    · cases h with
      | list l => exact ⟨l, .inl rfl, fun x hx => h3 (.list l) (by simp) x (.list l hx)⟩
    · cases h with
      | tuple l => exact ⟨l, .inr rfl, fun x hx => h3 (.tuple l) (by simp) x (.tuple l hx)⟩
  · rintro ⟨l, rfl | rfl, h⟩
    · refine ⟨⟨.list, by simp, .list l⟩, fun hc => absurd (.list l) hc, fun _ _ x hx => ?_⟩
      cases hx with
      | list _ hx => exact h x hx
    · refine ⟨⟨.tuple, by simp, .tuple l⟩, fun hc => absurd (.tuple l) hc, fun _ _ x hx => ?_⟩
      cases hx with
      | tuple _ hx => exact h x hx

/-- **C75, numbers of neighbours.** `n_neighbors` is accepted if and only if it is a tuple or a list whose elements are numbers at least 1, `True`, `None` or containers (of anything): types are not checked. -/
theorem C75_n_neighbors (v : PyVal) :
    checkParam nNeighborsRef v = .ok () ↔ ∃ l, (v = .tuple l ∨ v = .list l) ∧
      ∀ x ∈ l, (∃ n : Int, 1 ≤ n ∧ x = .int n) ∨ (∃ y : ℚ, 1 ≤ y ∧ x = .float y) ∨ x = .bool true ∨ x = .none ∨ Spec.IsContainer x := by
  have key : ∀ x, Valid (.mk none (some atLeastOne) none .none) x ↔
      (∃ n : Int, 1 ≤ n ∧ x = .int n) ∨ (∃ y : ℚ, 1 ≤ y ∧ x = .float y) ∨ x = .bool true ∨ x = .none ∨ Spec.IsContainer x := by
    intro x
    unfold Valid
    constructor
    · rintro ⟨-, h2, -⟩
      by_cases hc : Spec.IsContainer x
      · exact .inr (.inr (.inr (.inr hc)))
      · rcases (h2 hc).1 with h | h
        · exact .inr (.inr (.inr (.inl h)))
        · have := h atLeastOne rfl
          cases x with
          | bool b => simp only [atLeastOne] at this; subst this; exact .inr (.inr (.inl rfl))
          | int n => simp only [atLeastOne, decide_eq_true_eq] at this; exact .inl ⟨n, this, rfl⟩
          | float y => simp only [atLeastOne, decide_eq_true_eq] at this; exact .inr (.inl ⟨y, this, rfl⟩)
          | _ => simp [atLeastOne] at this
    · intro h
      refine ⟨trivial, fun hc => ⟨?_, nofun⟩, fun _ h => absurd rfl h⟩
      rcases h with ⟨n, hn, rfl⟩ | ⟨y, hy, rfl⟩ | rfl | rfl | h
      · exact .inr (by rintro p hp; cases hp; simpa [atLeastOne] using hn)
      · exact .inr (by rintro p hp; cases hp; simpa [atLeastOne] using hy)
      · exact .inr (by rintro p hp; cases hp; rfl)
      · exact .inl rfl
      · exact absurd h hc
  rw [(checkParam_spec _ v (by simp [nNeighborsRef, WellDeclared, WellDeclaredOf])).1]
  unfold nNeighborsRef Valid ValidOf
  simp only [key]
  constructor
  · rintro ⟨⟨t, ht, h⟩, -, h3⟩
    simp only [List.mem_cons, List.not_mem_nil, or_false] at ht
    rcases ht with rfl | rfl
    · cases h with
      | tuple l => exact ⟨l, .inl rfl, fun x hx => h3 (.tuple l) (by simp) x (.tuple l hx)⟩
    · cases h with
      | list l => exact ⟨l, .inr rfl, fun x hx => h3 (.list l) (by simp) x (.list l hx)⟩
  · rintro ⟨l, rfl | rfl, h⟩
    · refine ⟨⟨.tuple, by simp, .tuple l⟩, fun hc => absurd (.tuple l) hc, fun _ _ x hx => ?_⟩
      cases hx with
      | tuple _ hx => exact h x hx
    · refine ⟨⟨.list, by simp, .list l⟩, fun hc => absurd (.list l) hc, fun _ _ x hx => ?_⟩
      cases hx with
      | list _ hx => exact h x hx

/-- `True` passes wherever an integer is declared. -/
theorem C75_bool_is_int (b : Bool) : checkParam (.mk (some (.one .int)) none none .none) (.bool b) = .ok () := by cases b <;> decide +kernel

end Gtda.Props
