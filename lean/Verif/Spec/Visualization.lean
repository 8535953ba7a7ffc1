import Mathlib.Algebra.Order.Field.Basic
import Mathlib.Data.Rat.Defs

/-!
# What node colours, sizes and texts of Mapper plots should be

Independent of the model: hexadecimal texts, interpolation between neighbouring colours, rounding.
-/

set_option autoImplicit false

namespace Gtda.Spec.Vis

/-- The hexadecimal digits in order of value. -/
def lowerHex : List Char :=
  ['0', '1', '2', '3', '4', '5', '6', '7', '8', '9', 'a', 'b', 'c', 'd', 'e', 'f']

/-- `t` is the text of the colour `(r, g, b)`: a hash sign and two hexadecimal digits for each
channel, high digit first. -/
def IsHexText (t : List Char) (r g b : Nat) : Prop :=
  ∃ r1 r0 g1 g0 b1 b0 : Nat,
    r = 16 * r1 + r0 ∧ g = 16 * g1 + g0 ∧ b = 16 * b1 + b0 ∧
    ∃ c1 c2 c3 c4 c5 c6 : Char,
      lowerHex[r1]? = some c1 ∧ lowerHex[r0]? = some c2 ∧ lowerHex[g1]? = some c3 ∧
      lowerHex[g0]? = some c4 ∧ lowerHex[b1]? = some c5 ∧ lowerHex[b0]? = some c6 ∧
      t = ['#', c1, c2, c3, c4, c5, c6]

section

variable {K : Type} [Field K] [LinearOrder K]

/-- `n` is `y` rounded to the nearest whole number, up if two are equally near. -/
def Rounded (n : Nat) (y : K) : Prop := (n : K) - 1 / 2 ≤ y ∧ y < (n : K) + 1 / 2

/-- The number between `a`, at position `p`, and `b`, at position `q`, that a straight line gives
at position `x`. -/
def between (p q a b x : K) : K := a + (b - a) * ((x - p) / (q - p))

/-- All three channels of `c` are those of the colour `y`, rounded. -/
def RoundedColor (c : Nat × Nat × Nat) (y : K × K × K) : Prop :=
  Rounded c.1 y.1 ∧ Rounded c.2.1 y.2.1 ∧ Rounded c.2.2 y.2.2

/-- The colour a straight line gives at position `x` between two rows of a colorscale. -/
def betweenColor (p q : K × K × K × K) (x : K) : K × K × K :=
  (between p.1 q.1 p.2.1 q.2.1 x, between p.1 q.1 p.2.2.1 q.2.2.1 x,
    between p.1 q.1 p.2.2.2 q.2.2.2 x)

/-- `p` and `q` are consecutive rows. -/
def Neighbours {α : Type} (l : List α) (p q : α) : Prop := ∃ pre post, l = pre ++ p :: q :: post

/-- A colorscale: positions from 0 to 1 in order, channels from 0 to 255.  Several colours at one
position, as in a scale with jumps, are allowed. -/
structure WellFormed (rows : List (K × K × K × K)) : Prop where
  first : ∃ r ∈ rows.head?, r.1 = 0
  last : ∃ r ∈ rows.getLast?, r.1 = 1
  ordered : (rows.map Prod.fst).Pairwise (· ≤ ·)
  range : ∀ r ∈ rows, (0 ≤ r.2.1 ∧ r.2.1 ≤ 255) ∧ (0 ≤ r.2.2.1 ∧ r.2.2.1 ≤ 255) ∧
    (0 ≤ r.2.2.2 ∧ r.2.2.2 ≤ 255)

/-- `c` is the colour of position `x` in a colorscale: the first colour left of the scale, the last
colour at its end and right of it, and the rounded colour on the line between the neighbouring rows
inside. -/
structure IsColorAt (rows : List (K × K × K × K)) (x : K) (c : Nat × Nat × Nat) : Prop where
  below : x < 0 → ∀ r ∈ rows.head?, RoundedColor c r.2
  above : 1 ≤ x → ∀ r ∈ rows.getLast?, RoundedColor c r.2
  inside : ∀ p q, Neighbours rows p q → p.1 ≤ x → x < q.1 → RoundedColor c (betweenColor p q x)

/-- A colour with whole channels, as a colour of the field. -/
def castRgb (c : Nat × Nat × Nat) : K × K × K := ((c.1 : K), (c.2.1 : K), (c.2.2 : K))

/-- All nodes have the same value. -/
def Constant (col : List K) : Prop := ∀ x ∈ col, ∀ y ∈ col, x = y

/-- The colours of a column, relative to its own range. -/
def ColumnShown (rows : List (K × K × K × K)) (col : List K) (out : List (List Char)) : Prop :=
  ∃ lo ∈ col, ∃ hi ∈ col, (∀ y ∈ col, lo ≤ y ∧ y ≤ hi) ∧
    List.Forall₂ (fun v t => ∃ r g b, IsHexText t r g b ∧
      IsColorAt rows ((v - lo) / (hi - lo)) (r, g, b)) col out

end

/-- The hover text of a node: one line for each of its five data. -/
def nodeLines (nodeId pullback label size stat : List Char) : List Char :=
  List.intercalate "<br>".toList
    ["Node ID: ".toList ++ nodeId, "Pullback set label: ".toList ++ pullback,
      "Partial cluster label: ".toList ++ label, "Node size: ".toList ++ size,
      "Summary statistic: ".toList ++ stat]

end Gtda.Spec.Vis
