import Verif.Model.Diagrams

set_option autoImplicit false

/-!
# Model of the common postprocessing of the persistent homology transformers

`gtda/homology/_utils.py`. The engines (ripser, flagser, GUDHI) are not modelled: their outputs are arbitrary inputs here.
-/

namespace Gtda.Diagrams
open Gtda.Py

/-- A float as returned by an engine. Used in `nanToNum`, gtda/homology/_utils.py:12. -/
inductive Raw (V : Type)
  | num (v : V)
  | posinf
  | neginf
  | nan
  deriving DecidableEq, Repr

/-- The result of one engine call: for ripser and flagser a list of subdiagrams indexed by dimension, for GUDHI a list of `(dim, (birth, death))`. Used in `rawSub`, gtda/homology/_utils.py:17-37. -/
inductive RawDiagram (V : Type)
  | byDim (l : List (List (Raw V × Raw V)))
  | gudhi (l : List (Nat × (Raw V × Raw V)))

/-- The argument `format`. Used in `rawSub`, gtda/homology/_utils.py:17-37. -/
inductive Format
  | ripser | flagser | gudhi | other
  deriving DecidableEq, Repr

section
variable {V : Type} [LinearOrder V]

/-- `np.nan_to_num(·, posinf=infinity_values)` on one entry, gtda/homology/_utils.py:12; `zero` and `lowest` are what numpy puts for NaN and `-inf`. -/
def nanToNum (inf zero lowest : V) : Raw V → V
  | .num v => v
  | .posinf => inf
  | .neginf => lowest
  | .nan => zero

/-- `replace_infinity_values`, gtda/homology/_utils.py:11-13. -/
def replaceInfinity (inf zero lowest : V) (sub : List (Raw V × Raw V)) : List (V × V) :=
  (sub.map fun p => (nanToNum inf zero lowest p.1, nanToNum inf zero lowest p.2)).filter fun p => decide (p.1 < p.2)

/-- The subdiagram in dimension `dim` of one raw diagram after slicing, gtda/homology/_utils.py:17-37. -/
def rawSub (fmt : Format) (reduced : Bool) (dim : Nat) (D : RawDiagram V) : PyM (List (Raw V × Raw V)) :=
  match fmt, D with
  | .ripser, .byDim l | .flagser, .byDim l =>
    match l[dim]? with
    | none => .error .indexError
    | some s => .ok (if dim ≠ 0 ∨ reduced = false then s else s.dropLast)
  | .gudhi, .gudhi l =>
    let s := (l.filter fun p => p.1 = dim).map Prod.snd
    .ok (if dim ≠ 0 ∨ reduced = false then s else s.drop 1)
  | .other, _ => .error .valueError
  | _, _ => .error .typeError

/-- Slice assignment `row[start:start + len(vals), …] = vals`, where `upd` says which entries of a triple are overwritten. Used in `writeDim`, gtda/homology/_utils.py:53-63. -/
def assignSlice {α β : Type} (upd : α → β → α) (row : List α) (start : Nat) (vals : List β) : List α :=
  row.mapIdx fun k x => if start ≤ k then (match vals[k - start]? with | some v => upd x v | none => x) else x

/-- `np.min` of the births of all subdiagrams in one dimension, 0 if there are none, gtda/homology/_utils.py:44-48. (`np.inf` serves there as a marker for "none"; a
birth is never infinite since it is smaller than its death.) -/
def padValue (zero : V) (births : List V) : V :=
  match births with
  | [] => zero
  | b :: t => t.foldl min b

/-- Writes for one homology dimension on one row, gtda/homology/_utils.py:53-63. -/
def writeDim (row : List (Pt V Nat)) (dim start stop : Nat) (pad : V) (sub : List (V × V)) : List (Pt V Nat) :=
  let row := assignSlice (fun p q => { p with q := q }) row start (List.replicate (stop - start) dim)
  let row := assignSlice (fun p v => { p with b := v.1, d := v.2 }) row start sub
  assignSlice (fun p v => { p with b := v, d := v }) row (start + sub.length) (List.replicate (stop - (start + sub.length)) pad)

/-- `_postprocess_diagrams`, gtda/homology/_utils.py:7-65. `garbage j k` is the content of the uninitialised array `np.empty(…)`. The loop over samples is here outside
the loop over dimensions (the writes touch disjoint rows), and the dictionaries keyed by dimension are lists in the order of `dims`. -/
def postprocess (fmt : Format) (dims : List Nat) (inf zero lowest : V) (reduced : Bool) (garbage : Nat → Nat → Pt V Nat)
    (Xt : List (RawDiagram V)) : PyM (List (List (Pt V Nat))) :=
  if fmt = .other then .error .valueError
  else do
    let subs ← Xt.mapM fun D => dims.mapM fun dim => (replaceInfinity inf zero lowest <$> rawSub fmt reduced dim D)
    if Xt.isEmpty ∧ ¬ dims.isEmpty then .error .valueError
    else
      let widths := (List.range dims.length).map fun i => (subs.map fun S => (S.getD i []).length).foldl max 1
      let pads := (List.range dims.length).map fun i => padValue zero (subs.flatMap fun S => (S.getD i []).map Prod.fst)
      let starts := (cumsum (((0 : Nat) :: widths).map fun (w : Nat) => (w : Int))).map Int.toNat
      let nFeatures := starts.getLastD 0
      .ok (subs.mapIdx fun j S =>
        (List.range dims.length).foldl
          (fun row i => writeDim row (dims.getD i 0) (starts.getD i 0) (starts.getD (i + 1) 0) (pads.getD i zero) (S.getD i []))
          ((List.range nFeatures).map (garbage j)))

end

end Gtda.Diagrams
