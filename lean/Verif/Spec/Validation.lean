import Verif.Model.Validation

set_option autoImplicit false

/-!
# Specification of parameter validation

What it means for a value to satisfy a reference, following the documentation of `validate_params`.
-/

namespace Gtda.Spec
open Gtda.Py Gtda.Validation

/-- Lists, tuples, arrays and dictionaries. -/
inductive IsContainer : PyVal → Prop
  | list (l : List PyVal) : IsContainer (.list l)
  | tuple (l : List PyVal) : IsContainer (.tuple l)
  | ndarray (l : List PyVal) : IsContainer (.ndarray l)
  | dict (l : List (String × PyVal)) : IsContainer (.dict l)

/-- `v` is an instance of the class. A Boolean is also an integer; Booleans, integers and floats are real numbers. -/
inductive InstanceOf : PyVal → PyType → Prop
  | noneType : InstanceOf .none .noneType
  | bool (b : Bool) : InstanceOf (.bool b) .bool
  | boolInt (b : Bool) : InstanceOf (.bool b) .int
  | boolReal (b : Bool) : InstanceOf (.bool b) .real
  | int (n : Int) : InstanceOf (.int n) .int
  | intReal (n : Int) : InstanceOf (.int n) .real
  | float (x : ℚ) : InstanceOf (.float x) .float
  | floatReal (x : ℚ) : InstanceOf (.float x) .real
  | inf : InstanceOf .floatInf .float
  | infReal : InstanceOf .floatInf .real
  | nan : InstanceOf .floatNan .float
  | nanReal : InstanceOf .floatNan .real
  | str (s : String) : InstanceOf (.str s) .str
  | function (s : String) : InstanceOf (.function s) .function
  | obj (c : String) : InstanceOf (.obj c) (.cls c)
  | list (l : List PyVal) : InstanceOf (.list l) .list
  | tuple (l : List PyVal) : InstanceOf (.tuple l) .tuple
  | ndarray (l : List PyVal) : InstanceOf (.ndarray l) .ndarray
  | dict (l : List (String × PyVal)) : InstanceOf (.dict l) .dict

/-- `x` is an element of a sequence, or a key of a dictionary. -/
inductive IsElement (x : PyVal) : PyVal → Prop
  | list (l : List PyVal) (h : x ∈ l) : IsElement x (.list l)
  | tuple (l : List PyVal) (h : x ∈ l) : IsElement x (.tuple l)
  | ndarray (l : List PyVal) (h : x ∈ l) : IsElement x (.ndarray l)
  | key (l : List (String × PyVal)) (n : String) (y : PyVal) (h : (n, y) ∈ l) (hx : x = .str n) : IsElement x (.dict l)

/-- A dictionary has the value `x` for the key `n`. -/
inductive IsEntry (n : String) (x : PyVal) : PyVal → Prop
  | dict (l : List (String × PyVal)) (h : (n, x) ∈ l) : IsEntry n x (.dict l)

/-- The value is an instance of the class or of one of the classes; no declared type means any type. -/
def HasType : Option TypeSpec → PyVal → Prop
  | none, _ => True
  | some (.one t), v => InstanceOf v t
  | some (.many ts), v => ∃ t ∈ ts, InstanceOf v t

mutual
/-- The value satisfies the reference: it has the declared type; if it is not a container it is `None` or in the admissible set, and passes the custom check; if it is a container of
declared type its entries satisfy `'of'`. -/
def Valid : Ref → PyVal → Prop
  | .mk type adm other of, v =>
    HasType type v ∧
    (¬ IsContainer v → (v = .none ∨ ∀ p, adm = some p → p v = true) ∧ ∀ f, other = some f → f v = .ok ()) ∧
    (IsContainer v → type ≠ none → ValidOf of v)
/-- All entries satisfy `'of'`. -/
def ValidOf : Of → PyVal → Prop
  | .none, _ => True
  | .elem r, v => ∀ x, IsElement x v → Valid r x
  | .names rs, v => ∀ n x, IsEntry n x v → ValidNamed rs n x
/-- The name is declared and the value satisfies its (first) reference. -/
def ValidNamed : Refs → String → PyVal → Prop
  | .nil, _, _ => False
  | .cons m r rest, n, v => (m = n ∧ Valid r v) ∨ (m ≠ n ∧ ValidNamed rest n v)
  | .any m rest, n, v => m = n ∨ ValidNamed rest n v
end

mutual
/-- The value violates the reference in a way that the exception `e` stands for: `TypeError` for a wrong type, `ValueError` for a value outside the admissible set, `KeyError` for
an entry of a dictionary that is not declared, any exception of a custom check. -/
def Violates (e : PyErr) : Ref → PyVal → Prop
  | .mk type adm other of, v =>
    (e = .typeError ∧ ¬ HasType type v) ∨
    (e = .valueError ∧ ¬ IsContainer v ∧ v ≠ .none ∧ ∃ p, adm = some p ∧ p v = false) ∨
    (¬ IsContainer v ∧ ∃ f, other = some f ∧ f v = .error e) ∨
    (IsContainer v ∧ type ≠ none ∧ ViolatesOf e of v)
/-- Some entry violates `'of'`. -/
def ViolatesOf (e : PyErr) : Of → PyVal → Prop
  | .none, _ => False
  | .elem r, v => ∃ x, IsElement x v ∧ Violates e r x
  | .names rs, v => ∃ n x, IsEntry n x v ∧ ViolatesNamed e rs n x
/-- The name is not declared, or the value violates its reference. -/
def ViolatesNamed (e : PyErr) : Refs → String → PyVal → Prop
  | .nil, _, _ => e = .keyError
  | .cons m r rest, n, v => (m = n ∧ Violates e r v) ∨ (m ≠ n ∧ ViolatesNamed e rest n v)
  | .any m rest, n, v => m ≠ n ∧ ViolatesNamed e rest n v
end

mutual
/-- Declarations as documented: references for entries by name belong to the type `dict`, references for all elements to the other types, and the reference for the elements of a
sequence does not itself have an `'of'`. -/
def WellDeclared : Ref → Prop
  | .mk type _ _ of => WellDeclaredOf (decide (type = some (.one .dict))) of
def WellDeclaredOf : Bool → Of → Prop
  | _, .none => True
  | false, .elem (.mk _ _ _ of) => of = .none
  | true, .names rs => WellDeclaredRefs rs
  | _, _ => False
def WellDeclaredRefs : Refs → Prop
  | .nil => True
  | .cons _ r rest => WellDeclared r ∧ WellDeclaredRefs rest
  | .any _ rest => WellDeclaredRefs rest
end

end Gtda.Spec
