import Verif.Model.NodeColors

/-!
# Specifications for static Mapper plots: plain statements about labelled columns and drawn lines
-/

set_option autoImplicit false

namespace Gtda.Spec.Colors

open Py Gtda.Vis

section

variable {V : Type}

/-- The `j`-th entries of all rows. -/
def column (rows : List (List V)) (j : Nat) : List V := rows.filterMap fun r => r[j]?

/-- At least one row and column, all rows equally long, no column label twice. -/
def WellFormed : Data V → Prop
  | .array (.vec l) => l ≠ []
  | .array (.mat c rows) => rows ≠ [] ∧ 1 ≤ c ∧ ∀ r ∈ rows, r.length = c
  | .frame names rows => rows ≠ [] ∧ 1 ≤ names.length ∧ (∀ r ∈ rows, r.length = names.length) ∧ names.Nodup
  | .series l => l ≠ []

/-- The number of samples. -/
def size : Data V → Nat
  | .array (.vec l) => l.length
  | .array (.mat _ rows) => rows.length
  | .frame _ rows => rows.length
  | .series l => l.length

/-- All entries. -/
def entries : Data V → List V
  | .array (.vec l) => l
  | .array (.mat _ rows) => rows.flatten
  | .frame _ rows => rows.flatten
  | .series l => l

/-- The columns with their labels: those of a dataframe, the numbers 0, 1, … otherwise. -/
def labelled : Data V → List (Key × List V)
  | .array (.vec l) => [(.int 0, l)]
  | .array (.mat c rows) => (List.range c).map fun (j : Nat) => (.int j, column rows j)
  | .frame names rows => names.zipIdx.map fun p => (p.1, column rows p.2)
  | .series l => [(.int 0, l)]

/-- `c` is the column of `d` with label (of a dataframe) or index (of an array, negative ones from the end) `k`. -/
def Pick (d : Data V) (k : Key) (c : List V) : Prop :=
  match d with
  | .frame names rows => ∃ j, names[j]? = some k ∧ c = column rows j
  | .array (.mat n rows) => ∃ j, j < n ∧ (k = .int j ∨ k = .int ((j : Int) - n)) ∧ c = column rows j
  | _ => False

/-- The object has no methods and cannot be called. -/
def Plain (o : FeatureObj V) : Prop := o.hasDtype = false ∧ o.fitTransform = none ∧ o.transform = none ∧ o.call = none

/-- The features of interest which `color_features` chooses from the colour data, as documented. -/
inductive Chooses (d : Data V) : FeatureObj V → List (Key × List V) → Prop
  | none (o : FeatureObj V) : Plain o → o.isNone = true → Chooses d o (labelled d)
  | fitTransform (o : FeatureObj V) (f : Data V → PyM (Data V)) (a : Arr V) : o.hasDtype = false → o.fitTransform = some f → f d = .ok (.array a) → WellFormed (.array a) →
      Chooses d o (labelled (.array a))
  | transform (o : FeatureObj V) (f : Data V → PyM (Data V)) (a : Arr V) : o.hasDtype = false → o.fitTransform = Option.none → o.transform = some f → f d = .ok (.array a) →
      WellFormed (.array a) → Chooses d o (labelled (.array a))
  | call (o : FeatureObj V) (f : Data V → PyM (Data V)) (d' : Data V) : o.hasDtype = false → o.fitTransform = Option.none → o.transform = Option.none → o.call = some f → f d = .ok d' →
      WellFormed d' → Chooses d o (labelled d')
  | column (o : FeatureObj V) (k : Key) (c : List V) : Plain o → o.isNone = false → o.key = .one k → Pick d k c → Chooses d o [(k, c)]
  | columns (o : FeatureObj V) (ks : List Key) (cs : List (List V)) : Plain o → o.isNone = false → o.key = .many ks → ks ≠ [] → List.Forall₂ (Pick d) ks cs → Chooses d o (ks.zip cs)

/-- A table of `m` rows whose columns are the given ones, with their labels if there are several. -/
def Shows (cols : List (Key × List V)) (m c : Nat) (rows : List (List V)) (names : Option (List Key)) : Prop :=
  c = cols.length ∧ (1 < c → names = some (cols.map Prod.fst)) ∧
    ∃ entry : Nat → Nat → V, (rows = (List.range m).map fun (r : Nat) => (List.range c).map fun (j : Nat) => entry r j) ∧
      ∀ j, j < c → (cols[j]?).map Prod.snd = some ((List.range m).map fun (r : Nat) => entry r j)

end

/-- The text of a label: a string itself, a number as it is written. -/
def IsText (showInt : Int → List Char) (k : Key) (t : List Char) : Prop := (∀ s, k = .str s → t = s) ∧ ∀ i, k = .int i → t = showInt i

/-- The lines drawn by a trace: between consecutive points, interrupted at `None`. -/
def drawn {P : Type} : List (Option P) → List (P × P)
  | some a :: some b :: t => (a, b) :: drawn (some b :: t)
  | some _ :: none :: t => drawn t
  | [some _] => []
  | none :: t => drawn t
  | [] => []

/-- The points of a trace given by lists of coordinates of the same length `n`. -/
def points {K : Type} (coords : List (List (Option K))) (n : Nat) : List (Option (List K)) := (List.range n).map fun (i : Nat) => coords.mapM fun c => (c[i]?).join

end Gtda.Spec.Colors
