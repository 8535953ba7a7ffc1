import Verif.Py.Basic
import Mathlib.Order.WithBot
import Mathlib.Algebra.Order.Field.Basic

set_option autoImplicit false

/-!
# Model of `gtda/utils/intervals.py`

End points range over a linear order; for arithmetic they are the numbers of an ordered field together with the two infinities. Not modelled: `__hash__`, `__repr__`, `__str__`,
`mid`, `length`, `__floordiv__`, operands that are infinite or NaN.
-/

namespace Gtda.Intervals
open Gtda.Py

/-- The values of `closed`. Used in `parseClosed`, gtda/utils/intervals.py:30. -/
inductive Closed
  | left | right | both | neither
  deriving DecidableEq, Repr

/-- Membership in `_VALID_CLOSED`, gtda/utils/intervals.py:30. -/
def parseClosed : String → Option Closed
  | "left" => some .left
  | "right" => some .right
  | "both" => some .both
  | "neither" => some .neither
  | _ => none

/-- An argument used as an end point: not an instance of `numbers.Real`, NaN, or a (finite or infinite) number. Used in `mkInterval`, gtda/utils/intervals.py:32-51. -/
inductive Endpoint (α : Type)
  | notReal
  | nan
  | val (x : α)

/-- An `Interval` object. Used in `mkInterval`, gtda/utils/intervals.py:32-51. -/
structure Interval (α : Type) where
  left : α
  right : α
  closed : Closed
  deriving DecidableEq, Repr

section
variable {α : Type} [LinearOrder α]

/-- `Interval.__init__`, gtda/utils/intervals.py:32-51. Comparisons with NaN are false. -/
def mkInterval (l r : Endpoint α) (closed : String) : PyM (Interval α) :=
  match l, r, parseClosed closed with
  | .notReal, _, _ => .error .valueError
  | _, .notReal, _ => .error .valueError
  | _, _, none => .error .valueError
  | .val x, .val y, some c => if x ≤ y then .ok ⟨x, y, c⟩ else .error .valueError
  | _, _, _ => .error .valueError

/-- The string of a `closed` attribute. See gtda/utils/intervals.py:30. -/
def Closed.str : Closed → String
  | .left => "left" | .right => "right" | .both => "both" | .neither => "neither"

/-- `closed_left`, gtda/utils/intervals.py:53-58. -/
def closedLeft (I : Interval α) : Bool := I.closed == .left || I.closed == .both

/-- `closed_right`, gtda/utils/intervals.py:60-65. -/
def closedRight (I : Interval α) : Bool := I.closed == .right || I.closed == .both

/-- `is_empty`, gtda/utils/intervals.py:97-102. -/
def isEmpty (I : Interval α) : Bool := decide (I.right = I.left) && !(I.closed == .both)

/-- `key in I`, gtda/utils/intervals.py:107-111. -/
def contains (I : Interval α) (key : Endpoint α) : Bool :=
  match key with
  | .val k => (if closedLeft I = false then decide (I.left < k) else decide (I.left ≤ k)) && (if closedRight I = false then decide (k < I.right) else decide (k ≤ I.right))
  | _ => false

/-- `I.intersects(J)`, gtda/utils/intervals.py:165-193. -/
def intersects (I J : Interval α) : Bool :=
  (if closedLeft I && closedRight J then decide (I.left ≤ J.right) else decide (I.left < J.right)) &&
  (if closedLeft J && closedRight I then decide (J.left ≤ I.right) else decide (J.left < I.right))

/-! ### Pickling -/

/-- An argument of the constructor call. Used in `construct`, gtda/utils/intervals.py:32. -/
inductive Arg (α : Type)
  | num (x : α)
  | str (s : String)

/-- `Interval(*args, **kwargs)`: the signature is `(self, left, right, *, closed)`, gtda/utils/intervals.py:32; `kwargs` contains at most `closed`. -/
def construct (args : List (Arg α)) (kwClosed : Option String) : PyM (Interval α) :=
  match args, kwClosed with
  | [l, r], some c =>
    let e : Arg α → Endpoint α := fun a => match a with | .num x => .val x | .str _ => .notReal
    mkInterval (e l) (e r) c
  | _, _ => .error .typeError

/-- `__reduce__`, gtda/utils/intervals.py:113-115: positional arguments of the reconstruction, no keyword arguments. -/
def reduceArgs (I : Interval α) : List (Arg α) := [.num I.left, .num I.right, .str I.closed.str]

/-- `pickle.loads(pickle.dumps(I))`, and likewise `copy.copy(I)` and `copy.deepcopy(I)`: `type(I)(*args)`. See gtda/utils/intervals.py:113-115. -/
def unpickle (I : Interval α) : PyM (Interval α) := construct (reduceArgs I) none

end

/-! ### Arithmetic -/

/-- Finite and infinite numbers. Used in `pyAdd`, gtda/utils/intervals.py:130-135. -/
abbrev Ext (K : Type) := WithBot (WithTop K)

section
variable {K : Type} [Field K] [LinearOrder K]

/-- The finite number `x`. Used in `pyAdd`, gtda/utils/intervals.py:130-135. -/
def fin (x : K) : Ext K := ((x : WithTop K) : WithBot (WithTop K))

/-- `x + y` for a finite `y`. Used in `pyAdd`, gtda/utils/intervals.py:130-135. -/
def extAdd (y : K) : Ext K → Endpoint (Ext K)
  | none => .val ⊥
  | some none => .val ⊤
  | some (some x) => .val (fin (x + y))

/-- `x * y` for a finite `y`: infinity times zero is NaN. Used in `pyMul`, gtda/utils/intervals.py:142-147. -/
def extMul (y : K) : Ext K → Endpoint (Ext K)
  | none => if 0 < y then .val ⊥ else if y < 0 then .val ⊤ else .nan
  | some none => if 0 < y then .val ⊤ else if y < 0 then .val ⊥ else .nan
  | some (some x) => .val (fin (x * y))

/-- An operand: a (finite) real number or an interval. Used in `pyAdd`, gtda/utils/intervals.py:130-135. -/
inductive Operand (K : Type)
  | num (y : K)
  | ivl (I : Interval (Ext K))

/-- `a + b`, gtda/utils/intervals.py:130-135. There is no `__radd__`, so a number on the left gives a `TypeError`, as does the sum of two intervals. -/
def pyAdd : Operand K → Operand K → PyM (Operand K)
  | .num x, .num y => .ok (.num (x + y))
  | .ivl I, .num y => (mkInterval (extAdd y I.left) (extAdd y I.right) I.closed.str).map .ivl
  | _, _ => .error .typeError

/-- `a - b`, gtda/utils/intervals.py:137-140. -/
def pySub : Operand K → Operand K → PyM (Operand K)
  | .num x, .num y => .ok (.num (x - y))
  | .ivl I, .num y => (mkInterval (extAdd (-y) I.left) (extAdd (-y) I.right) I.closed.str).map .ivl
  | _, _ => .error .typeError

/-- `a * b`, gtda/utils/intervals.py:142-147. There is no `__rmul__`. -/
def pyMul : Operand K → Operand K → PyM (Operand K)
  | .num x, .num y => .ok (.num (x * y))
  | .ivl I, .num y => (mkInterval (extMul y I.left) (extMul y I.right) I.closed.str).map .ivl
  | _, _ => .error .typeError

/-- `a / b`, gtda/utils/intervals.py:154-157. -/
def pyDiv : Operand K → Operand K → PyM (Operand K)
  | .num x, .num y => if y = 0 then .error .zeroDivision else .ok (.num (x / y))
  | .ivl I, .num y =>
    if y = 0 then .error .zeroDivision else (mkInterval (extMul y⁻¹ I.left) (extMul y⁻¹ I.right) I.closed.str).map .ivl
  | _, _ => .error .typeError

end

end Gtda.Intervals
