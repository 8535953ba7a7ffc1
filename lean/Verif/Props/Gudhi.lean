import Verif.Spec.Gudhi

set_option autoImplicit false

/-!
# C138: the Python classes around GUDHI
-/

namespace Gtda.Gudhi

open Py Persistence Diagrams Spec.Gudhi

section objects

variable {Cx Pc V : Type}

/-! ### Construction -/

/-- A `CubicalComplex` gets its complex from dimensions and cells exactly when both are given and no file is; from a file exactly when it is given alone and exists. In all other cases the constructor
does not raise: it prints one message and leaves an object without complex. -/
theorem C138_construct (fromCells : List Nat → List V → Option (List Bool) → PyM Cx) (fromFile : String → PyM Cx) (isFile : String → Bool) (dims : Option (List Nat)) (cells : Option (List V))
    (periodic : Option (List Bool)) (file : String) :
    (∀ d c, dims = some d → cells = some c → file = "" →
      cubicalNew (Pc := Pc) .cubical fromCells fromFile isFile dims cells periodic file = ⟨(fromCells d c none).map fresh, []⟩) ∧
    (dims = none → cells = none → file ≠ "" → isFile file = true →
      cubicalNew (Pc := Pc) .cubical fromCells fromFile isFile dims cells periodic file = ⟨(fromFile file).map fresh, []⟩) ∧
    (dims = none → cells = none → file ≠ "" → isFile file = false →
      cubicalNew (Pc := Pc) .cubical fromCells fromFile isFile dims cells periodic file = ⟨.ok ⟨none, .none⟩, ["file " ++ file ++ " not found."]⟩) ∧
    (¬ (dims.isSome ∧ cells.isSome ∧ file = "") → ¬ (dims = none ∧ cells = none ∧ file ≠ "") →
      cubicalNew (Pc := Pc) .cubical fromCells fromFile isFile dims cells periodic file =
        ⟨.ok ⟨none, .none⟩, ["CubicalComplex can be constructed from dimensions and top_dimensional_cells or from a Perseus-style file name."]⟩) := by
  refine ⟨?_, ?_, ?_, ?_⟩
  · rintro d c rfl rfl rfl
    simp [cubicalNew, fresh]
    rfl
  · rintro rfl rfl hf hi
    simp [cubicalNew, hf, hi]
    rfl
  · rintro rfl rfl hf hi
    simp [cubicalNew, hf, hi]
  · intro h1 h2
    cases dims <;> cases cells <;> simp_all [cubicalNew]

/-- The same for `PeriodicCubicalComplex`, where `periodic_dimensions` has to be given together with the other two. -/
theorem C138_construct_periodic (fromCells : List Nat → List V → Option (List Bool) → PyM Cx) (fromFile : String → PyM Cx) (isFile : String → Bool) (dims : Option (List Nat))
    (cells : Option (List V)) (periodic : Option (List Bool)) (file : String) :
    (∀ d c p, dims = some d → cells = some c → periodic = some p → file = "" →
      cubicalNew (Pc := Pc) .periodic fromCells fromFile isFile dims cells periodic file = ⟨(fromCells d c (some p)).map fresh, []⟩) ∧
    (dims = none → cells = none → periodic = none → file ≠ "" → isFile file = true →
      cubicalNew (Pc := Pc) .periodic fromCells fromFile isFile dims cells periodic file = ⟨(fromFile file).map fresh, []⟩) ∧
    (dims = none → cells = none → periodic = none → file ≠ "" → isFile file = false →
      cubicalNew (Pc := Pc) .periodic fromCells fromFile isFile dims cells periodic file = ⟨.ok ⟨none, .none⟩, ["file " ++ file ++ " not found."]⟩) ∧
    (¬ (dims.isSome ∧ cells.isSome ∧ periodic.isSome ∧ file = "") → ¬ (dims = none ∧ cells = none ∧ periodic = none ∧ file ≠ "") →
      cubicalNew (Pc := Pc) .periodic fromCells fromFile isFile dims cells periodic file =
        ⟨.ok ⟨none, .none⟩, ["CubicalComplex can be constructed from dimensions and top_dimensional_cells or from a Perseus-style file name."]⟩) := by
  refine ⟨?_, ?_, ?_, ?_⟩
  · rintro d c p rfl rfl rfl rfl
    simp [cubicalNew, fresh]
    rfl
  · rintro rfl rfl rfl hf hi
    simp [cubicalNew, hf, hi]
    rfl
  · rintro rfl rfl rfl hf hi
    simp [cubicalNew, hf, hi]
  · intro h1 h2
    cases dims <;> cases cells <;> cases periodic <;> simp_all [cubicalNew]

/-! ### Histories -/

private theorem run_cons (E : Cohomology Cx Pc V) (o : Obj Cx Pc) (c : Call Cx V) (l : List (Call Cx V)) : o.run E (c :: l) = (o.step E c).run E l := rfl

private theorem undefined_run (E : Cohomology Cx Pc V) (calls : List (Call Cx V)) : (⟨none, .none⟩ : Obj Cx Pc).run E calls = ⟨none, .none⟩ := by
  induction calls with
  | nil => rfl
  | cons c l ih => cases c <;> exact ih

/-- An object without complex stays silent about it for ever: whatever is called on it, `persistence` returns an empty list as if the complex had no homology, Betti numbers are empty, and only
`num_simplices` and `dimension` raise (`AttributeError`). -/
theorem C138_undefined (E : Cohomology Cx Pc V) (kind : Kind) (calls : List (Call Cx V)) (flag : Option Bool) (field : Int) (m a b : V) :
    (((⟨none, .none⟩ : Obj Cx Pc).run E calls).persistence E flag field m).2 = .ok [] ∧ (((⟨none, .none⟩ : Obj Cx Pc).run E calls).betti E kind).value = .ok [] ∧
    (((⟨none, .none⟩ : Obj Cx Pc).run E calls).persistentBetti E kind a b).value = .ok [] ∧
    ∀ (f : Cx → Nat), ((⟨none, .none⟩ : Obj Cx Pc).run E calls).measure f = .error .attributeError := by
  rw [undefined_run]
  exact ⟨rfl, rfl, rfl, fun _ => rfl⟩

private theorem run_complex (E : Cohomology Cx Pc V) (calls : List (Call Cx V)) : ∀ (cx : Cx) (p : Attr Pc), ((⟨some cx, p⟩ : Obj Cx Pc).run E calls).complex = some (complexAfter cx calls) := by
  induction calls with
  | nil => intro cx p; rfl
  | cons c l ih =>
    intro cx p
    rw [run_cons]
    cases c with
    | change f => exact ih (f cx) p
    | persistence flag field m =>
      have : ∃ q, ((⟨some cx, p⟩ : Obj Cx Pc).persistence E flag field m).1 = ⟨some cx, q⟩ := by
        cases p with
        | deleted => exact ⟨_, rfl⟩
        | none => cases h : E.new cx flag <;> simp [Obj.persistence, h]
        | some pc => cases h : E.new cx flag <;> simp [Obj.persistence, h]
      obtain ⟨q, hq⟩ := this
      show ((Obj.persistence E ⟨some cx, p⟩ flag field m).1.run E l).complex = _
      rw [hq]
      exact ih cx q

private theorem obj_eta (o : Obj Cx Pc) (cx : Cx) (h : o.complex = some cx) : o = ⟨some cx, o.pcoh⟩ := by
  cases o
  simp only at h
  rw [h]

/-- For every history of calls on an object: as long as `betti_numbers()` does not raise `AttributeError`, `persistence` gives what a new object on the current complex would give, whatever was computed
before with other coefficients or thresholds, and (if the engine accepts the call) leaves the object as a new one would be left. -/
theorem C138_history (E : Cohomology Cx Pc V) (kind : Kind) (cx : Cx) (calls : List (Call Cx V)) (flag : Option Bool) (field : Int) (m : V)
    (hok : (((fresh cx : Obj Cx Pc).run E calls).betti E kind).value ≠ .error .attributeError) :
    (((fresh cx : Obj Cx Pc).run E calls).persistence E flag field m).2 = ((fresh (complexAfter cx calls) : Obj Cx Pc).persistence E flag field m).2 ∧
    ((∃ pc, E.new (complexAfter cx calls) flag = .ok pc) →
      (((fresh cx : Obj Cx Pc).run E calls).persistence E flag field m).1 = ((fresh (complexAfter cx calls) : Obj Cx Pc).persistence E flag field m).1) := by
  have h := run_complex E calls cx (Attr.none : Attr Pc)
  change ((fresh cx : Obj Cx Pc).run E calls).complex = _ at h
  generalize (fresh cx : Obj Cx Pc).run E calls = o at h hok ⊢
  rw [obj_eta o _ h] at hok ⊢
  generalize o.pcoh = p at hok ⊢
  generalize complexAfter cx calls = c at *
  cases p with
  | deleted => exact absurd rfl hok
  | none => exact ⟨rfl, fun _ => rfl⟩
  | some pc => cases hn : E.new c flag <;> simp [Obj.persistence, fresh, hn]

/-- If the engine accepts booleans and only booleans are passed, no history of calls makes an object unusable. -/
theorem C138_alive (E : Cohomology Cx Pc V) (kind : Kind) (cx : Cx) (calls : List (Call Cx V)) (hE : ∀ c b, ∃ pc, E.new c (some b) = .ok pc) (hc : BooleanFlags calls) :
    ∃ l, (((fresh cx : Obj Cx Pc).run E calls).betti E kind).value = .ok l := by
  have key : ∀ (calls : List (Call Cx V)) (cx : Cx) (p : Attr Pc), p ≠ .deleted → BooleanFlags calls → ((⟨some cx, p⟩ : Obj Cx Pc).run E calls).pcoh ≠ .deleted := by
    intro calls
    induction calls with
    | nil => intro cx p hp _; exact hp
    | cons c l ih =>
      intro cx p hp hb
      have hl : BooleanFlags l := fun c' hc' => hb c' (List.mem_cons_of_mem _ hc')
      rw [run_cons]
      cases c with
      | change f => exact ih (f cx) p hp hl
      | persistence flag field m =>
        obtain ⟨b, rfl⟩ := hb _ List.mem_cons_self flag field m rfl
        obtain ⟨pc, hpc⟩ := hE cx b
        have : ((⟨some cx, p⟩ : Obj Cx Pc).persistence E (some b) field m).1 = ⟨some cx, .some (E.compute cx pc field m).1⟩ := by
          cases p with
          | deleted => exact absurd rfl hp
          | none => simp [Obj.persistence, hpc]
          | some _ => simp [Obj.persistence, hpc]
        show ((Obj.persistence E ⟨some cx, p⟩ (some b) field m).1.run E l).pcoh ≠ _
        rw [this]
        exact ih cx _ (by simp) hl
  have h := run_complex E calls cx (Attr.none : Attr Pc)
  have hp := key calls cx .none (by simp) hc
  change ((fresh cx : Obj Cx Pc).run E calls).complex = _ at h
  change ((fresh cx : Obj Cx Pc).run E calls).pcoh ≠ _ at hp
  generalize (fresh cx : Obj Cx Pc).run E calls = o at h hp ⊢
  rw [obj_eta o _ h]
  generalize o.pcoh = p at hp ⊢
  cases p with
  | deleted => exact absurd rfl hp
  | none => exact ⟨_, rfl⟩
  | some pc => exact ⟨_, rfl⟩

private theorem noPersistence_run (E : Cohomology Cx Pc V) (calls : List (Call Cx V)) (h : NoPersistence calls) :
    ∀ (cx : Cx) (p : Attr Pc), (⟨some cx, p⟩ : Obj Cx Pc).run E calls = ⟨some (complexAfter cx calls), p⟩ := by
  induction calls with
  | nil => intro cx p; rfl
  | cons c l ih =>
    intro cx p
    obtain ⟨f, rfl⟩ := h c List.mem_cons_self
    exact ih (fun c' hc' => h c' (List.mem_cons_of_mem _ hc')) (f cx) p

/-- Betti numbers, persistent Betti numbers and intervals are always those of the last call of `persistence`: if it returned a list, these methods afterwards ask the state in which that call left the
engine, whatever changed in the complex in between. In particular `insert` after `persistence` does not make them compute anything anew. -/
theorem C138_latest (E : Cohomology Cx Pc V) (kind : Kind) (cx : Cx) (before after : List (Call Cx V)) (flag : Option Bool) (field : Int) (m : V) (l : List (Nat × (V × V)))
    (h : (((fresh cx : Obj Cx Pc).run E before).persistence E flag field m).2 = .ok l) (hafter : NoPersistence after) :
    ∃ pc, E.new (complexAfter cx before) flag = .ok pc ∧ l = E.pairs (complexAfter cx before) (E.compute (complexAfter cx before) pc field m).1 ∧
      ∀ o, o = ((fresh cx : Obj Cx Pc).run E (before ++ [.persistence flag field m] ++ after)) →
        o.betti E kind = ⟨.ok (E.betti (complexAfter cx (before ++ after)) (E.compute (complexAfter cx before) pc field m).1), []⟩ ∧
        (∀ a b, o.persistentBetti E kind a b = ⟨.ok (E.persistentBetti (complexAfter cx (before ++ after)) (E.compute (complexAfter cx before) pc field m).1 a b), []⟩) ∧
        ∀ d, o.intervals E kind d = ⟨.ok (npOfPairs (E.intervals (complexAfter cx (before ++ after)) (E.compute (complexAfter cx before) pc field m).1 d)), []⟩ := by
  have hc := run_complex E before cx (Attr.none : Attr Pc)
  change ((fresh cx : Obj Cx Pc).run E before).complex = _ at hc
  have happ : ∀ (l : List (Call Cx V)) (c : Cx), complexAfter c (l ++ after) = complexAfter (complexAfter c l) after := by
    intro l
    induction l with
    | nil => intro c; rfl
    | cons x l ih => intro c; cases x <;> exact ih _
  have hrun : (fresh cx : Obj Cx Pc).run E (before ++ [.persistence flag field m] ++ after) = ((((fresh cx : Obj Cx Pc).run E before).persistence E flag field m).1).run E after := by
    simp [Obj.run, List.foldl_append, Obj.step]
  rw [happ, hrun]
  generalize (fresh cx : Obj Cx Pc).run E before = o at h hc ⊢
  rw [obj_eta o _ hc] at h ⊢
  generalize o.pcoh = p at h ⊢
  generalize complexAfter cx before = c at *
  cases hn : E.new c flag with
  | error e => cases p <;> simp [Obj.persistence, hn] at h
  | ok pc =>
    have h1 : ((⟨some c, p⟩ : Obj Cx Pc).persistence E flag field m) = (⟨some c, .some (E.compute c pc field m).1⟩, (E.compute c pc field m).2.map (fun _ => E.pairs c (E.compute c pc field m).1)) := by
      cases p with
      | deleted => simp [Obj.persistence] at h
      | none => simp [Obj.persistence, hn]
      | some q => simp [Obj.persistence, hn]
    rw [h1] at h ⊢
    refine ⟨pc, rfl, ?_, ?_⟩
    · cases hr : (E.compute c pc field m).2 with
      | error e => simp [hr, Except.map] at h
      | ok u => simpa [hr, Except.map] using h.symm
    · rintro o rfl
      rw [noPersistence_run E after hafter]
      exact ⟨rfl, fun _ _ => rfl, fun _ => rfl⟩

/-- Before the first call of `persistence`, the other methods return empty results without raising; `SimplexTree` and the intervals of all classes say so in a printed message. -/
theorem C138_before (E : Cohomology Cx Pc V) (kind : Kind) (cx : Cx) (calls : List (Call Cx V)) (h : NoPersistence calls) (a b : V) (d : Int) :
    ((fresh cx : Obj Cx Pc).run E calls).betti E kind = ⟨.ok [], if kind = .tree then ["`betti_numbers` requires persistence function to be launched first."] else []⟩ ∧
    ((fresh cx : Obj Cx Pc).run E calls).persistentBetti E kind a b =
      ⟨.ok [], if kind = .tree then ["`persistent_betti_numbers` requires persistence function to be launched first."] else []⟩ ∧
    (∃ r : NpArray V, (((fresh cx : Obj Cx Pc).run E calls).intervals E kind d).value = .ok r ∧ r.data = []) ∧
    (((fresh cx : Obj Cx Pc).run E calls).intervals E kind d).printed.length = 1 := by
  have hr := noPersistence_run E calls h cx (Attr.none : Attr Pc)
  change (fresh cx : Obj Cx Pc).run E calls = _ at hr
  rw [hr]
  refine ⟨rfl, rfl, ⟨_, rfl, ?_⟩, ?_⟩
  · split_ifs <;> rfl
  · cases kind <;> rfl

/-- `persistence_intervals_in_dimension` is documented to return an array of dimension 2. It does when there are intervals: one row of two numbers per interval. -/
theorem C138_intervals_partial {Cx Pc : Type} (E : Cohomology Cx Pc V) (kind : Kind) (cx : Cx) (pc : Pc) (d : Int) (h : E.intervals cx pc d ≠ []) :
    ∃ r : NpArray V, ((⟨some cx, .some pc⟩ : Obj Cx Pc).intervals E kind d).value = .ok r ∧ r.shape = [(E.intervals cx pc d).length, 2] ∧
      ∀ i, ∀ p, (E.intervals cx pc d)[i]? = some p → r.data[2 * i]? = some p.1 ∧ r.data[2 * i + 1]? = some p.2 := by
  refine ⟨npOfPairs (E.intervals cx pc d), rfl, ?_, ?_⟩
  · generalize E.intervals cx pc d = l at h ⊢
    cases l with
    | nil => exact absurd rfl h
    | cons p l => rfl
  · generalize E.intervals cx pc d = l at h ⊢
    have hd : (npOfPairs l).data = l.flatMap (fun p => [p.1, p.2]) := by cases l <;> rfl
    rw [hd]
    clear hd h
    induction l with
    | nil => intro i p hp; simp at hp
    | cons q l ih =>
      intro i p hp
      cases i with
      | zero => simp at hp; subst hp; simp
      | succ i =>
        have := ih i p (by simpa using hp)
        have e1 : 2 * (i + 1) = 2 * i + 1 + 1 := by omega
        simpa [e1] using this

/-- When there are no intervals the array has one dimension only, for every class; before `persistence` was called, `CubicalComplex` returns an array with one (empty) row, which looks like one
interval, and the other classes an array of dimension 1. -/
theorem C138_refuted_array (E : Cohomology Cx Pc V) (kind : Kind) (cx : Cx) (pc : Pc) (d : Int) (h : E.intervals cx pc d = []) :
    ((⟨some cx, .some pc⟩ : Obj Cx Pc).intervals E kind d).value = .ok ⟨[0], []⟩ ∧
    ((fresh cx : Obj Cx Pc).intervals E .cubical d).value = .ok ⟨[1, 0], []⟩ ∧ ((fresh cx : Obj Cx Pc).intervals E .periodic d).value = .ok ⟨[0], []⟩ ∧
    ((fresh cx : Obj Cx Pc).intervals E .tree d).value = .ok ⟨[0], []⟩ := by
  refine ⟨?_, rfl, rfl, rfl⟩
  show Except.ok (npOfPairs (E.intervals cx pc d)) = _
  rw [h]
  rfl

private theorem deleted_run (E : Cohomology Cx Pc V) (calls : List (Call Cx V)) : ∀ cx : Cx, ∃ c, (⟨some cx, .deleted⟩ : Obj Cx Pc).run E calls = ⟨some c, .deleted⟩ := by
  induction calls with
  | nil => intro cx; exact ⟨cx, rfl⟩
  | cons c l ih =>
    intro cx
    cases c with
    | change f => exact ih (f cx)
    | persistence flag field m => exact ih cx

/-- A failed call can break an object for good: if `persistence` succeeded once and a later call is refused by the engine (for example because `persistence_dim_max` is not a boolean), then `persistence`
itself and all methods that need it raise `AttributeError` from then on, also with valid arguments. On a new object the same refused call does no harm. -/
theorem C138_refuted_broken (E : Cohomology Cx Pc V) (kind : Kind) (cx : Cx) (flag : Option Bool) (field : Int) (m : V) (l : List (Nat × (V × V))) (bad : Option Bool) (e : PyErr)
    (hgood : ((fresh cx : Obj Cx Pc).persistence E flag field m).2 = .ok l) (hbad : E.new cx bad = .error e) :
    (∀ (field' : Int) (m' : V) (later : List (Call Cx V)), ∀ o : Obj Cx Pc, o = (fresh cx : Obj Cx Pc).run E ([.persistence flag field m, .persistence bad field' m'] ++ later) →
      (∀ flag'' field'' m'', (o.persistence E flag'' field'' m'').2 = .error .attributeError) ∧ (o.betti E kind).value = .error .attributeError ∧
      (∀ a b, (o.persistentBetti E kind a b).value = .error .attributeError) ∧ ∀ d, (o.intervals E kind d).value = .error .attributeError) ∧
    ∀ (field' : Int) (m' : V), (((fresh cx : Obj Cx Pc).run E [.persistence bad field' m']).persistence E flag field m).2 = .ok l := by
  have hbad0 : ∀ (field' : Int) (m' : V), (fresh cx : Obj Cx Pc).run E [.persistence bad field' m'] = fresh cx := by
    intro field' m'
    simp [Obj.run, Obj.step, Obj.persistence, fresh, hbad]
  refine ⟨?_, fun field' m' => by rw [hbad0]; exact hgood⟩
  rintro field' m' later o rfl
  have h2 : (fresh cx : Obj Cx Pc).run E ([.persistence flag field m, .persistence bad field' m'] ++ later) = (⟨some cx, .deleted⟩ : Obj Cx Pc).run E later := by
    cases hn : E.new cx flag with
    | error e' => simp [Obj.persistence, fresh, hn] at hgood
    | ok pc => simp [Obj.run, Obj.step, Obj.persistence, fresh, hn, hbad]
  rw [h2]
  obtain ⟨c, hc⟩ := deleted_run (Pc := Pc) E later cx
  rw [hc]
  exact ⟨fun _ _ _ => rfl, rfl, fun _ _ => rfl, fun _ => rfl⟩

/-- `write_persistence_diagram` writes exactly one file, the one named, with the state of the last call of `persistence`; without file name or without such a call it writes nothing and prints a
message. -/
theorem C138_write {F : Type} (w : Cx → Pc → F) (cx : Cx) (pc : Pc) (file : String) :
    (file ≠ "" → (⟨some cx, .some pc⟩ : Obj Cx Pc).write w file = ⟨.ok (some (file, w cx pc)), []⟩) ∧
    ((⟨some cx, .some pc⟩ : Obj Cx Pc).write w "" = ⟨.ok none, ["`persistence_file` must be specified"]⟩) ∧
    ((fresh cx : Obj Cx Pc).write w file = ⟨.ok none, ["`intervals_in_dim` requires persistence function to be launched first."]⟩) := by
  refine ⟨fun h => ?_, rfl, rfl⟩
  simp [Obj.write, h]

/-- `get_filtration`, `get_skeleton`, `get_star` and `get_cofaces` return the simplices and values of the engine, in its order. -/
theorem C138_rebuild (l : List (List Nat × V)) : rebuild l = l := by
  have hv : ∀ (v acc : List Nat), v.foldl (fun v x => v ++ [x]) acc = acc ++ v := by
    intro v
    induction v with
    | nil => intro acc; simp
    | cons x v ih => intro acc; simp [ih]
  have key : ∀ (l acc : List (List Nat × V)), l.foldl (fun ct s => ct ++ [(s.1.foldl (fun v x => v ++ [x]) [], s.2)]) acc = acc ++ l := by
    intro l
    induction l with
    | nil => intro acc; simp
    | cons s l ih => intro acc; rw [List.foldl_cons, ih, hv]; simp
  have h := key l []
  rw [List.nil_append] at h
  exact h

end objects

/-! ### Complexes that build simplex trees -/

section builders

variable {R Cx Pc V : Type}

/-- With a distance matrix, `points` is not looked at; without both, the complex is that of no points. This holds for `RipsComplex` and `SparseRipsComplex`. -/
theorem C138_rips (E : RipsEngine R Cx V) (points : Option (List (List V))) (D P : List (List V)) (maxEdge s : V) :
    ripsNew E points (some D) maxEdge = E.matrix D maxEdge ∧ ripsNew E (some P) none maxEdge = E.points P maxEdge ∧ ripsNew E none none maxEdge = E.points [] maxEdge ∧
    sparseRipsNew E points (some D) maxEdge (some s) = E.matrixSparse D maxEdge s ∧ sparseRipsNew E (some P) none maxEdge (some s) = E.pointsSparse P maxEdge s ∧
    sparseRipsNew E none none maxEdge (some s) = E.pointsSparse [] maxEdge s := by
  cases points <;> exact ⟨rfl, rfl, rfl, rfl, rfl, rfl⟩

/-- `SparseRipsComplex` is documented to build a sparse complex "if `sparse` is not None". With `None` it does not build the usual complex of `RipsComplex`: it raises `TypeError`, for all inputs. -/
theorem C138_refuted_sparse_none (E : RipsEngine R Cx V) (points matrix : Option (List (List V))) (maxEdge : V) : sparseRipsNew E points matrix maxEdge none = .error .typeError := by
  cases matrix <;> rfl

/-- A witness complex without table cannot build a tree; `limit_dimension=-1` stands for no limit, every other number (also another negative one) is passed on; the tree built is a new object. -/
theorem C138_witness (new : List (List (Nat × V)) → PyM R) (all : R → V → PyM Cx) (limited : R → V → Int → PyM Cx) (table : List (List (Nat × V))) (alpha : V) (limit : Int) :
    (do let w ← witnessNew new none; witnessTree (Pc := Pc) all limited w alpha limit) = .error .attributeError ∧
    (do let w ← witnessNew new (some table); witnessTree (Pc := Pc) all limited w alpha (-1)) = (do let r ← new table; let cx ← all r alpha; .ok (fresh cx)) ∧
    (limit ≠ -1 → (do let w ← witnessNew new (some table); witnessTree (Pc := Pc) all limited w alpha limit) = (do let r ← new table; let cx ← limited r alpha limit; .ok (fresh cx))) := by
  refine ⟨rfl, ?_, ?_⟩
  · cases h : new table with
    | error e => simp [witnessNew, h, Except.map, bind, Except.bind]
    | ok r => cases h' : all r alpha <;> simp [witnessNew, witnessTree, h, h', Except.map, bind, Except.bind, fresh]
  · intro hl
    cases h : new table with
    | error e => simp [witnessNew, h, Except.map, bind, Except.bind]
    | ok r => cases h' : limited r alpha limit <;> simp [witnessNew, witnessTree, h, h', hl, Except.map, bind, Except.bind, fresh]

end builders

/-! ### The calls made by the persistence transformers -/

section transformers

variable {R Cx Pc V : Type}

/-- `CubicalPersistence` gets for every image exactly what the engine computes for the complex of this image (its shape, its pixels in Fortran order and, if given, its periodic dimensions) with the
coefficient field of the transformer, and every exception of the engine: the silent empty list of an object without complex never reaches it. -/
theorem C138_cubical (E : Cohomology Cx Pc (Raw V)) (fromCells : List Nat → List V → Option (List Bool) → PyM Cx) (fromFile : String → PyM Cx) (isFile : String → Bool) (coeff : Int)
    (zero : Raw V) (periodic : Option (List Bool)) (X : NArr V) :
    cubicalCall E fromCells fromFile isFile coeff zero periodic X = (do
      let cx ← fromCells X.shape (flattenF X) periodic
      let pc ← E.new cx (some true)
      let _ ← (E.compute cx pc coeff zero).2
      .ok (E.pairs cx (E.compute cx pc coeff zero).1)) := by
  have hnew : (cubicalNew (Pc := Pc) (if periodic.isSome then .periodic else .cubical) fromCells fromFile isFile (some X.shape) (some (flattenF X)) periodic "").value =
      (fromCells X.shape (flattenF X) periodic).map fresh := by
    cases periodic <;> simp [cubicalNew] <;> rfl
  unfold cubicalCall
  rw [hnew]
  cases h : fromCells X.shape (flattenF X) periodic with
  | error e => rfl
  | ok cx =>
    cases h1 : E.new cx (some true) with
    | error e => simp [Except.map, bind, Except.bind, Obj.persistence, fresh, h1]
    | ok pc => cases h2 : (E.compute cx pc coeff zero).2 <;> simp [Except.map, bind, Except.bind, Obj.persistence, fresh, h1, h2]

/-- So the transformer of the model of C21 with these pairs as engine describes the code whenever the engine does not raise. -/
theorem C138_cubical_diagram (E : Cohomology Cx Pc (Raw V)) (fromCells : List Nat → List V → Option (List Bool) → PyM Cx) (fromFile : String → PyM Cx) (isFile : String → Bool) (coeff : Int)
    (zero : Raw V) (periodic : Option (List Bool)) (X : NArr V) (l : List (Nat × (Raw V × Raw V))) (h : cubicalCall E fromCells fromFile isFile coeff zero periodic X = .ok l)
    (engine : List Nat → List V → Option (List Bool) → List (Nat × (Raw V × Raw V)))
    (hengine : ∀ d c p cx pc, fromCells d c p = .ok cx → E.new cx (some true) = .ok pc → engine d c p = E.pairs cx (E.compute cx pc coeff zero).1) :
    cubicalDiagram engine periodic X = .gudhi l := by
  rw [C138_cubical] at h
  cases h0 : fromCells X.shape (flattenF X) periodic with
  | error e => simp [h0, bind, Except.bind] at h
  | ok cx =>
    cases h1 : E.new cx (some true) with
    | error e => simp [h0, h1, bind, Except.bind] at h
    | ok pc =>
      cases h2 : (E.compute cx pc coeff zero).2 with
      | error e => simp [h0, h1, h2, bind, Except.bind] at h
      | ok u =>
        simp only [h0, h1, h2, bind, Except.bind, Except.ok.injEq] at h
        rw [cubicalDiagram, hengine _ _ _ _ _ h0 h1, h]

/-- `SparseRipsPersistence` gets the pairs of the sparse complex of the distance matrix, expanded to one dimension more than the largest dimension asked for, without the top dimension of the complex,
for its coefficient field; every exception of the engine is passed on. -/
theorem C138_sparse_rips (E : Cohomology Cx Pc V) (F : RipsEngine R Cx V) (maxEdge epsilon zero : V) (coeff : Int) (maxDim : Nat) (D : List (List V)) :
    sparseRipsCall E F maxEdge epsilon zero coeff maxDim D = (do
      let r ← F.matrixSparse D maxEdge epsilon
      let cx ← F.tree r (maxDim + 1)
      let pc ← E.new cx (some false)
      let _ ← (E.compute cx pc coeff zero).2
      .ok (E.pairs cx (E.compute cx pc coeff zero).1)) := by
  unfold sparseRipsCall sparseRipsNew createTree
  cases h : F.matrixSparse D maxEdge epsilon with
  | error e => simp [h, bind, Except.bind]
  | ok r =>
    cases h' : F.tree r (maxDim + 1) with
    | error e => simp [h, h', bind, Except.bind, Except.map]
    | ok cx =>
      cases h1 : E.new cx (some false) with
      | error e => simp [h, h', Except.map, bind, Except.bind, Obj.persistence, h1]
      | ok pc => cases h2 : (E.compute cx pc coeff zero).2 <;> simp [h, h', Except.map, bind, Except.bind, Obj.persistence, h1, h2]

/-- The same for `EuclideanCechPersistence`. -/
theorem C138_cech (E : Cohomology Cx Pc V) (cech : List (List V) → V → PyM R) (tree : R → Int → PyM Cx) (maxRadius zero : V) (coeff : Int) (maxDim : Nat) (X : List (List V)) :
    cechCall E cech tree maxRadius zero coeff maxDim X = (do
      let r ← cech X maxRadius
      let cx ← tree r (maxDim + 1)
      let pc ← E.new cx (some false)
      let _ ← (E.compute cx pc coeff zero).2
      .ok (E.pairs cx (E.compute cx pc coeff zero).1)) := by
  unfold cechCall createTree
  cases h : cech X maxRadius with
  | error e => simp [bind, Except.bind]
  | ok r =>
    cases h' : tree r (maxDim + 1) with
    | error e => simp [h', bind, Except.bind, Except.map]
    | ok cx =>
      cases h1 : E.new cx (some false) with
      | error e => simp [h', Except.map, bind, Except.bind, Obj.persistence, h1]
      | ok pc => cases h2 : (E.compute cx pc coeff zero).2 <;> simp [h', Except.map, bind, Except.bind, Obj.persistence, h1, h2]

end transformers

/-! ### Examples -/

/-- An engine for examples: a complex is a number of points, its persistence is one class per point in the field asked for. It refuses second arguments that are not booleans. -/
private def toy : Cohomology Nat (Option Int) Int where
  new := fun _ flag => match flag with
    | some _ => .ok none
    | none => .error .typeError
  compute := fun _ _ field _ => (some field, .ok ())
  pairs := fun n pc => (List.range n).map (fun i => (0, ((i : Int), pc.getD 0)))
  betti := fun n _ => [n]
  persistentBetti := fun n _ _ _ => [n, n]
  intervals := fun n pc d => if d = 0 then (List.range n).map (fun i => ((i : Int), pc.getD 0)) else []

/-- The object works, is asked with wrong and with right arguments, and is changed in between. -/
example : (((fresh 2 : Obj Nat (Option Int)).run toy [.persistence (some true) 3 0, .change (· + 1)]).persistence toy (some false) 5 0).2 = .ok [(0, (0, 5)), (0, (1, 5)), (0, (2, 5))] ∧
    (((fresh 2 : Obj Nat (Option Int)).run toy [.persistence (some true) 3 0, .change (· + 1)]).betti toy .tree).value = .ok [3] ∧
    ((fresh 2 : Obj Nat (Option Int)).persistence toy (some true) 3 0).2 = .ok [(0, (0, 3)), (0, (1, 3))] ∧ toy.new 2 none = .error .typeError ∧
    (((fresh 2 : Obj Nat (Option Int)).run toy [.persistence (some true) 3 0, .persistence none 3 0, .change (· + 1)]).persistence toy (some true) 3 0).2 = .error .attributeError := by
  refine ⟨?_, ?_, ?_, ?_, ?_⟩ <;> decide +kernel

example : (∀ c b, ∃ pc, toy.new c (some b) = .ok pc) ∧ BooleanFlags [(.persistence (some true) 3 0 : Call Nat Int), .change (· + 1)] ∧ NoPersistence [(.change (· + 1) : Call Nat Int)] ∧
    toy.intervals 2 (some 3) 0 = [(0, 3), (1, 3)] ∧ toy.intervals 2 (some 3) 1 = [] := by
  refine ⟨fun c b => ⟨none, rfl⟩, ?_, ?_, by decide +kernel, by decide +kernel⟩
  · intro c hc flag field m h
    subst h
    simp at hc
    exact ⟨true, hc.1⟩
  · intro c hc
    simp at hc
    exact ⟨_, hc⟩

/-- An engine on images for examples: the complex is the list of pixels, each of them is born and dies at infinity. -/
private def toyCells : Cohomology (List Int) Unit (Raw Int) where
  new := fun _ _ => .ok ()
  compute := fun _ _ field _ => ((), if field = 4 then .error .valueError else .ok ())
  pairs := fun l _ => l.map (fun x => (0, (.num x, .posinf)))
  betti := fun _ _ => []
  persistentBetti := fun _ _ _ _ => []
  intervals := fun _ _ _ => []

example : cubicalCall toyCells (fun _ c _ => .ok c) (fun _ => .error .valueError) (fun _ => false) 2 (.num 0) none ⟨[2, 2], fun i => 1 + 2 * (i.getD 0 0) + i.getD 1 0⟩ =
      .ok [(0, (.num 1, .posinf)), (0, (.num 3, .posinf)), (0, (.num 2, .posinf)), (0, (.num 4, .posinf))] ∧
    cubicalCall toyCells (fun _ c _ => .ok c) (fun _ => .error .valueError) (fun _ => false) 4 (.num 0) (some [true, false]) ⟨[2, 2], fun i => 1 + 2 * (i.getD 0 0) + i.getD 1 0⟩ = .error .valueError ∧
    ∀ d c p cx pc, (fun (_ : List Nat) (c : List Int) (_ : Option (List Bool)) => (.ok c : PyM (List Int))) d c p = .ok cx → toyCells.new cx (some true) = .ok pc →
      (fun (_ : List Nat) (c : List Int) (_ : Option (List Bool)) => c.map (fun x => (0, (Raw.num x, Raw.posinf)))) d c p = toyCells.pairs cx (toyCells.compute cx pc 2 (.num 0)).1 := by
  refine ⟨by decide +kernel, by decide +kernel, ?_⟩
  rintro d c p cx pc h -
  simp only [Except.ok.injEq] at h
  subst h
  rfl

end Gtda.Gudhi
