import Verif.Model.Intervals
import Mathlib.Algebra.Order.Floor.Ring

set_option autoImplicit false

/-!
# Model of the remaining methods of `gtda/utils/intervals.py`

Properties, floor division, text forms, hashing and the comparison of `Interval` objects. Infinite end points are the two infinities of `Ext K`, results may be NaN (`Endpoint.nan`).
Text is a list of characters; how a number is written is a parameter.
-/

namespace Gtda.IntervalsMore
open Gtda.Py Gtda.Intervals

section
variable {α : Type} [LinearOrder α]

/-- `open_left`, gtda/utils/intervals.py:67-72. -/
def openLeft (I : Interval α) : Bool := !closedLeft I

/-- `open_right`, gtda/utils/intervals.py:74-79. -/
def openRight (I : Interval α) : Bool := !closedRight I

/-- What may be looked for in an interval: an object with attributes `left`, `right` and `closed`, or anything else (`_interval_like`, gtda/utils/intervals.py:8-11). -/
inductive Key (α : Type)
  | intervalLike
  | number (x : Endpoint α)

/-- `key in I`, gtda/utils/intervals.py:107-111. -/
def containsKey (I : Interval α) : Key α → PyM Bool
  | .intervalLike => .error .typeError
  | .number x => .ok (contains I x)

/-- `str(I)`, gtda/utils/intervals.py:124-128. -/
def strOf (sh : α → List Char) (I : Interval α) : List Char :=
  (if closedLeft I then '[' else '(') :: (sh I.left ++ [',', ' '] ++ sh I.right ++ [if closedRight I then ']' else ')'])

/-- `repr(I)`, gtda/utils/intervals.py:117-122. -/
def reprOf (sh : α → List Char) (I : Interval α) : List Char :=
  ['I', 'n', 't', 'e', 'r', 'v', 'a', 'l', '('] ++ sh I.left ++ [',', ' '] ++ sh I.right ++ [',', ' ', 'c', 'l', 'o', 's', 'e', 'd', '=', '\''] ++ I.closed.str.toList ++ ['\'', ')']

/-! ### Hashing and comparison -/

/-- An `Interval` as an object: where it is in memory, and its attributes. See gtda/utils/intervals.py:14, 49-51. -/
structure Object (α : Type) where
  address : Nat
  value : Interval α

/-- `hash(I)`, gtda/utils/intervals.py:104-105; `h` is the hash of a triple. -/
def hashOf {H : Type} (h : α × α × Closed → H) (o : Object α) : H := h (o.value.left, o.value.right, o.value.closed)

/-- `I == J`: the class defines no `__eq__`, so that it is Python's comparison of addresses. See gtda/utils/intervals.py:14-193. -/
def eqOf (o o' : Object α) : Bool := o.address == o'.address

/-- `d.get(key)` for a dictionary with intervals as keys: an entry is found if the hash is the same and the keys are the same object or equal. Used with gtda/utils/intervals.py:104-105. -/
def lookup {H β : Type} [DecidableEq H] (h : α × α × Closed → H) (d : List (Object α × β)) (key : Object α) : Option β :=
  (d.find? fun e => decide (hashOf h e.1 = hashOf h key) && (e.1.address == key.address || eqOf e.1 key)).map Prod.snd

end

section
variable {K : Type} [Field K] [LinearOrder K]

/-- `x + y` for finite or infinite numbers. Used in `mid`, gtda/utils/intervals.py:87. -/
def plus : Ext K → Ext K → Endpoint (Ext K)
  | some (some x), some (some y) => .val (fin (x + y))
  | none, some none => .nan
  | some none, none => .nan
  | none, _ => .val ⊥
  | _, none => .val ⊥
  | some none, _ => .val ⊤
  | _, some none => .val ⊤

/-- `-x` for a finite or infinite number. Used in `length`, gtda/utils/intervals.py:95. -/
def minus : Ext K → Ext K
  | none => ⊤
  | some none => ⊥
  | some (some x) => fin (-x)

/-- `mid`, gtda/utils/intervals.py:81-87. -/
def mid (I : Interval (Ext K)) : Endpoint (Ext K) :=
  match plus I.left I.right with
  | .val s => extMul 2⁻¹ s
  | e => e

/-- `length`, gtda/utils/intervals.py:89-95. -/
def length (I : Interval (Ext K)) : Endpoint (Ext K) := plus I.right (minus I.left)

/-- `x // y` for a finite `y` other than zero: infinity divided with remainder is NaN. Used in `floorDiv`, gtda/utils/intervals.py:159-163. -/
def extFloorDiv [FloorRing K] (y : K) : Ext K → Endpoint (Ext K)
  | some (some x) => .val (fin (⌊x / y⌋ : K))
  | _ => .nan

/-- `I // y`, gtda/utils/intervals.py:159-163. -/
def floorDiv [FloorRing K] : Operand K → Operand K → PyM (Operand K)
  | .num x, .num y => if y = 0 then .error .zeroDivision else .ok (.num (⌊x / y⌋ : K))
  | .ivl I, .num y =>
    if y = 0 then .error .zeroDivision else (mkInterval (extFloorDiv y I.left) (extFloorDiv y I.right) I.closed.str).map .ivl
  | _, _ => .error .typeError

end

end Gtda.IntervalsMore
