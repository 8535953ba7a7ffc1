import Mathlib.Algebra.Order.Field.Basic
import Mathlib.Algebra.Order.Floor.Ring
import Mathlib.Data.Int.Log
import Verif.Py.Basic

/-!
# Node colours, node sizes and hover texts of Mapper plots

Models `gtda/mapper/utils/_visualization.py`.  Strings are lists of characters.  Colour values live
in an ordered field with a floor function, so rounding of floats is not modelled.  Plotly objects
(`go.Figure`, traces, buttons) and igraph layouts are not modelled: what is modelled is the data
handed to them.
-/

set_option autoImplicit false

namespace Gtda.Vis

open Py

/-! ## Hexadecimal colours -/

/-- One lower case hexadecimal digit, as produced by the format code `x`
(`_visualization.py:503`). -/
def hexDigit (n : Nat) : Char :=
  match n with
  | 0 => '0' | 1 => '1' | 2 => '2' | 3 => '3' | 4 => '4' | 5 => '5' | 6 => '6' | 7 => '7'
  | 8 => '8' | 9 => '9' | 10 => 'a' | 11 => 'b' | 12 => 'c' | 13 => 'd' | 14 => 'e' | _ => 'f'

/-- The value of a character as a hexadecimal digit, as `int(_, 16)` reads it
(`_visualization.py:498`).  Simplification: Python also accepts decimal digits of other scripts. -/
def hexValue (c : Char) : Option Nat :=
  match c with
  | '0' => some 0 | '1' => some 1 | '2' => some 2 | '3' => some 3 | '4' => some 4
  | '5' => some 5 | '6' => some 6 | '7' => some 7 | '8' => some 8 | '9' => some 9
  | 'a' => some 10 | 'b' => some 11 | 'c' => some 12 | 'd' => some 13 | 'e' => some 14
  | 'f' => some 15
  | 'A' => some 10 | 'B' => some 11 | 'C' => some 12 | 'D' => some 13 | 'E' => some 14
  | 'F' => some 15
  | _ => none

/-- Hexadecimal digits of a number, most significant first; the first argument bounds the number of
digits (`_visualization.py:503`, format code `x`). -/
def hexDigits : Nat → Nat → List Char
  | 0, _ => []
  | fuel + 1, n => if n < 16 then [hexDigit n] else hexDigits fuel (n / 16) ++ [hexDigit (n % 16)]

/-- The format code `02x`: hexadecimal digits padded on the left with zeros to two characters
(`_visualization.py:503`). -/
def fmt02x (n : Nat) : List Char :=
  let ds := hexDigits (n + 1) n
  List.replicate (2 - ds.length) '0' ++ ds

/-- `_rbg_to_hex` (`_visualization.py:501-503`). -/
def rgbToHex (c : Nat × Nat × Nat) : List Char :=
  '#' :: (fmt02x c.1 ++ fmt02x c.2.1 ++ fmt02x c.2.2)

/-- Digits of `int(_, 16)`: at least one, all hexadecimal, read from the left. Used in `intHex`, gtda/mapper/utils/_visualization.py:498. -/
def readHex (s : List Char) : PyM Int :=
  if s = [] then .error .valueError
  else
    match s.mapM hexValue with
    | some ds => pure (ds.foldl (fun acc d => 16 * acc + (d : Int)) 0)
    | none => .error .valueError

/-- `int(s, 16)` for the strings of at most two characters that `_hex_to_rgb` passes
(`_visualization.py:498`): blanks are stripped, one sign is allowed.  Simplification: the only
blank characters are space, tab and newline; separators and prefixes need three characters. -/
def intHex (s : List Char) : PyM Int :=
  let blank := fun c : Char => c == ' ' || c == '\t' || c == '\n'
  match ((s.dropWhile blank).reverse.dropWhile blank).reverse with
  | '+' :: t => readHex t
  | '-' :: t => readHex t >>= fun n => pure (-n)
  | t => readHex t

/-- `_hex_to_rgb` (`_visualization.py:495-498`): leading hash signs are stripped, then the
characters at 0-1, 2-3 and 4-5 are read as hexadecimal numbers. -/
def hexToRgb (value : List Char) : PyM (List Int) :=
  let v := value.dropWhile (· == '#')
  [0, 2, 4].mapM fun i => intHex ((v.drop i).take 2)

/-! ## Interpolation in a colorscale -/

section

variable {K : Type} [Field K] [LinearOrder K] [FloorRing K]

/-- A colour with three channels. Used in `slopes`, gtda/mapper/utils/_visualization.py:534-536. -/
abbrev Rgb (K : Type) : Type := K × K × K

/-- `numpy.digitize(x, bins)` (`_visualization.py:540`): the number of bin edges at or below `x` if
the edges never decrease, the number of edges above `x` if they never increase, and `ValueError`
otherwise. -/
def digitize (bins : List K) (x : K) : PyM Nat :=
  if bins.IsChain (· ≤ ·) then pure (bins.countP fun b => decide (b ≤ x))
  else if bins.IsChain (· ≥ ·) then pure (bins.countP fun b => decide (x < b))
  else .error .valueError

/-- `astype(numpy.uint8)` of a float (`_visualization.py:547`): the fractional part is dropped and
the integer is taken modulo 256. -/
def toUint8 (y : K) : Nat :=
  ((if 0 ≤ y then ⌊y⌋ else ⌈y⌉) % 256).toNat

/-- One channel of an interpolated colour (`_visualization.py:542-547`): the left end plus the
slope of the bin times the distance from the left end, plus one half, as an unsigned byte. -/
def channel (left slope offset : K) : Nat :=
  toUint8 (left + slope * offset + 1 / 2)

/-- The slope rows (`_visualization.py:534-536`): differences of consecutive rows of the colorscale
divided by the differences of positions, for all but the row which leads to the appended copy of the
first row, which is zero.  Simplification: a bin of width zero has slope zero here and an infinite or
undefined one in NumPy; no value falls in such a bin. -/
def slopes : List (K × Rgb K) → List (Rgb K)
  | [] => []
  | [_] => [(0, 0, 0)]
  | p :: q :: rest =>
      let d := q.1 - p.1
      ((q.2.1 - p.2.1) / d, (q.2.2.1 - p.2.2.1) / d, (q.2.2.2 - p.2.2.2) / d) ::
        slopes (q :: rest)

/-- Interpolation of one value, already scaled (`_visualization.py:540-547`).  Index `-1`, for
values left of every edge, selects the last row: the appended copy of the first row of the
colorscale, and the slope zero. -/
def interpolate (table : List (K × Rgb K)) (x : K) : PyM (Nat × Nat × Nat) := do
  let d ← digitize (table.map Prod.fst) x
  let rows := table ++ table.take 1
  let i := if d = 0 then rows.length - 1 else d - 1
  let j := if d = 0 then (slopes table).length - 1 else d - 1
  match rows[i]?, (slopes table)[j]? with
  | some r, some s =>
      pure (channel r.2.1 s.1 (x - r.1), channel r.2.2.1 s.2.1 (x - r.1),
        channel r.2.2.2 s.2.2 (x - r.1))
  | _, _ => .error .indexError

/-- A colorscale as given to `_get_colors_for_vals`: pairs of a position and a colour, or a sequence
of colours (`_visualization.py:517-521`). -/
inductive Colorscale (K : Type) where
  | pairs (l : List (K × List Char))
  | plain (l : List (List Char))

/-- `numpy.linspace(0, 1, num=n)` (`_visualization.py:520`). -/
def linspace01 (n : Nat) : List K :=
  (List.range n).map fun (i : Nat) => if n = 1 then 0 else (i : K) / ((n - 1 : Nat) : K)

/-- Positions and colours (`_visualization.py:517-522`). -/
def scaleColors : Colorscale K → List (K × List Char)
  | .pairs l => l
  | .plain l => (linspace01 l.length).zip l

/-- Three numbers out of the list made by `_hex_to_rgb`, as floats (`_visualization.py:528`). -/
def asRgb : List Int → PyM (Rgb K)
  | [r, g, b] => pure ((r : K), (g : K), (b : K))
  | _ => .error .valueError

/-- How the colour strings are read is decided by the first one (`_visualization.py:524-530`).
`lit` stands for `ast.literal_eval`; only its use for triples of numbers is modelled. -/
def parseColors (lit : List Char → PyM (Rgb K)) (colors : List (List Char)) :
    PyM (List (Rgb K)) :=
  match colors with
  | [] => .error .indexError
  | first :: _ =>
      if first.take 3 = ['r', 'g', 'b'] then colors.mapM fun c => lit (c.drop 3)
      else
        match first with
        | [] => .error .indexError
        | '#' :: _ => colors.mapM fun c => hexToRgb c >>= asRgb
        | _ => .error .valueError

/-- The rows of the colorscale before the first one is appended (`_visualization.py:517-532`). -/
def colorTable (lit : List Char → PyM (Rgb K)) (cs : Colorscale K) : PyM (List (K × Rgb K)) := do
  let sc := scaleColors cs
  let colors ← parseColors lit (sc.map Prod.snd)
  pure ((sc.map Prod.fst).zip colors)

/-- `_get_colors_for_vals` with `return_hex=True`, as all callers use it
(`_visualization.py:506-550`). -/
def getColorsForVals (lit : List Char → PyM (Rgb K)) (vals : List K) (vmin vmax : K)
    (cs : Colorscale K) : PyM (List (List Char)) :=
  if vmax ≤ vmin then .error .valueError
  else do
    let table ← colorTable lit cs
    let rgb ← vals.mapM fun v => interpolate table ((v - vmin) / (vmax - vmin))
    pure (rgb.map rgbToHex)

/-! ## Background colours of the hover labels of a 3D plot -/

/-- `numpy.min` of a column, `ValueError` if it is empty (`_visualization.py:157, 425`). -/
def colMin (c : List K) : PyM K :=
  match c with
  | [] => .error .valueError
  | x :: xs => pure (xs.foldl min x)

/-- `numpy.max` of a column, `ValueError` if it is empty (`_visualization.py:158, 426`). -/
def colMax (c : List K) : PyM K :=
  match c with
  | [] => .error .valueError
  | x :: xs => pure (xs.foldl max x)

/-- Colours of one column, scaled by its own minimum and maximum
(`_visualization.py:156-163, 425-431`). -/
def columnColors (lit : List Char → PyM (Rgb K)) (cs : Colorscale K) (col : List K) :
    PyM (List (List Char)) := do
  let lo ← colMin col
  let hi ← colMax col
  getColorsForVals lit col lo hi cs

/-- Background colours of the hover labels: white for all nodes, or one colour per node. Used in `getColorsForVals`, gtda/mapper/utils/_visualization.py:506-550. -/
inductive Background where
  | white
  | perNode (colors : List (List Char))
deriving DecidableEq

/-- The colours computed for a 3D plot without a `hoverlabel_bgcolor` of the user's
(`_visualization.py:423-457`): the colours of the first column, white if computing them fails
(lines 427-444), and for each further column the colours of its button
(`_visualization.py:142-163`), which are only computed if those of the first column were. -/
def hoverColors (lit : List Char → PyM (Rgb K)) (cs : Colorscale K) (first : List K)
    (rest : List (List K)) : PyM (Background × List (Option (List (List Char)))) := do
  let lo ← colMin first
  let hi ← colMax first
  match getColorsForVals lit first lo hi cs with
  | .ok c => do
      let buttons ← rest.mapM fun col => columnColors lit cs col
      pure (.perNode c, buttons.map some)
  | .error _ => pure (.white, rest.map fun _ => none)

end

/-! ## Sizes, statistics and hover texts of nodes -/

/-- `_get_node_size` (`_visualization.py:89-91`). -/
def nodeSizes {ι : Type} (nodeElements : List (List ι)) : List Nat :=
  nodeElements.map List.length

/-- `_set_node_sizeref` (`_visualization.py:75-77`); the maximum of no sizes is `ValueError`. -/
def sizeref {K : Type} [Field K] [LinearOrder K] (sizes : List Nat) (scale : K) : PyM K :=
  match sizes with
  | [] => .error .valueError
  | s :: ss =>
      if scale = 0 then .error .zeroDivision
      else pure (2 * ((ss.foldl max s : Nat) : K) / scale ^ 2)

/-- `color_data_transformed[itr, i]` (`_visualization.py:113`): the entries of column `i` in the rows
of a node. -/
def gather {V : Type} (table : List (List V)) (itr : List Nat) (i : Nat) : PyM (List V) :=
  itr.mapM fun r =>
    match table[r]? with
    | some row =>
        match row[i]? with
        | some v => pure v
        | none => .error .indexError
    | none => .error .indexError

/-- `_get_node_statistics` (`_visualization.py:109-115`). -/
def nodeStatistics {V W : Type} (stat : List V → PyM W) (table : List (List V)) (ncols : Nat)
    (nodeElements : List (List Nat)) : PyM (List (List W)) :=
  nodeElements.mapM fun itr =>
    (List.range ncols).mapM fun i => gather table itr i >>= stat

/-- `numpy.rint`: the nearest integer, the even one of two equally near ones. Used in `roundSig`, gtda/mapper/utils/_visualization.py:80-86. -/
def rint {K : Type} [Field K] [LinearOrder K] [FloorRing K] (y : K) : Int :=
  let f := y - (⌊y⌋ : K)
  if f < 1 / 2 then ⌊y⌋
  else if 1 / 2 < f then ⌊y⌋ + 1
  else if ⌊y⌋ % 2 = 0 then ⌊y⌋ else ⌊y⌋ + 1

/-- `numpy.round(x, d)`: scale, round to an integer, scale back. Used in `roundSig`, gtda/mapper/utils/_visualization.py:80-86. -/
def roundDec {K : Type} [Field K] [LinearOrder K] [FloorRing K] (x : K) (d : Int) : K :=
  (rint (x * 10 ^ d) : K) / 10 ^ d

/-- `_round_to_n_sig_figs` (`_visualization.py:80-86`); `Int.log 10` is the integer part of the
logarithm to base ten. -/
def roundSig {K : Type} [Field K] [LinearOrder K] [FloorRing K] (x : K) (n : Option Int) : K :=
  match n with
  | none => x
  | some n => if x = 0 then 0 else roundDec x (-(Int.log 10 |x|) + (n - 1))

/-- One text of `_get_node_text` (`_visualization.py:98-105`), given how numbers are printed. -/
def nodeText (nodeId pullback label size stat : List Char) : List Char :=
  "Node ID: ".toList ++ nodeId ++ "<br>Pullback set label: ".toList ++ pullback ++
    "<br>Partial cluster label: ".toList ++ label ++ "<br>Node size: ".toList ++ size ++
    "<br>Summary statistic: ".toList ++ stat

/-- `str.rfind(" ")` (`_visualization.py:126`): the last position of a blank, `-1` if there is
none. -/
def rfindBlank (s : List Char) : Int :=
  (s.length : Int) - 1 - (s.reverse.takeWhile (· != ' ')).length

/-- `replace_summary_statistic` (`_visualization.py:125-129`), given the printed new statistic. -/
def replaceStatistic (current new : List Char) : List Char :=
  pySlice none (some (rfindBlank current)) 1 current ++ ' ' :: new

/-- What a button of the menu shows: its label, the colour values of the nodes and the hover
texts. Used in `columnButtons`, gtda/mapper/utils/_visualization.py:118-167. -/
structure Button (V : Type) where
  label : List Char
  colors : List V
  hovertext : List (List Char)
deriving DecidableEq

/-- `node_colors_color_features[:, column]` (`_visualization.py:134, 143`). -/
def columnOf {V : Type} (colors : List (List V)) (j : Nat) : PyM (List V) :=
  colors.mapM fun row =>
    match row[j]? with
    | some v => pure v
    | none => .error .indexError

/-- `_get_column_color_buttons` (`_visualization.py:118-167`) without the background colours, which
`hoverColors` models; `print` is the printing of a statistic after rounding. -/
def columnButtons {V : Type} (print : V → List Char) (colors : List (List V))
    (hover : List (List Char)) (names : List (List Char)) : PyM (List (Button V)) :=
  match names with
  | [] => .error .indexError
  | name :: rest => do
      let c ← columnOf colors 0
      let more ← (rest.zipIdx 1).mapM fun p => do
        let c ← columnOf colors p.2
        pure ⟨p.1, c, (hover.zip c).map fun q => replaceStatistic q.1 (print q.2)⟩
      pure (⟨name, c, hover⟩ :: more)

/-- The hover texts of all nodes (`_visualization.py:315-325`): identifier, pullback set label,
partial cluster label, number of elements and the statistic in the first column, printed after
rounding.  `showInt` prints an integer, `print` a rounded statistic. -/
def hoverTexts {V : Type} (showInt : Int → List Char) (print : V → List Char)
    (ids pullback labels sizes : List Int) (stat : List V) : List (List Char) :=
  ((ids.zip pullback).zip (labels.zip (sizes.zip stat))).map fun t =>
    nodeText (showInt t.1.1) (showInt t.1.2) (showInt t.2.1) (showInt t.2.2.1) (print t.2.2.2)

end Gtda.Vis
