import Verif.Model.ImagePlots

set_option autoImplicit false

/-!
# What a viewer sees of a heat map
-/

namespace Gtda.Spec.ImagePlots
open Gtda.ImagePlots

variable {K : Type}

/-- Plotly draws the rows of `z` at increasing ordinates. Whether these increase from the top down is a property of the vertical axis. -/
def TopDown (f : Figure K) : Prop := f.layout.get ["yaxis", "autorange"] = some (.text "reversed")

/-- The vertical axis is as usual: ordinates increase upwards. -/
def BottomUp (f : Figure K) : Prop := f.layout.get ["yaxis", "autorange"] = some (.flag true)

/-- `rows` are the rows one sees, from the top to the bottom, if no coordinates are given. -/
def Shows (f : Figure K) (rows : List (List K)) : Prop :=
  f.trace.get ["x"] = none ∧ f.trace.get ["y"] = none ∧
    ((TopDown f ∧ f.trace.get ["z"] = some (.image rows)) ∨ (BottomUp f ∧ f.trace.get ["z"] = some (.image rows.reverse)))

/-- The numbers of an array; `True` is 1 and `False` is 0. -/
def numbers [Zero K] [One K] : Data K → List (List K)
  | .bools z => z.map fun r => r.map fun b => if b then 1 else 0
  | .nums z => z

/-- What is asked for: the value given, else the default. -/
def given {β : Type} (o : Option β) (default : β) : β :=
  match o with
  | some b => b
  | none => default

/-- Titles of heat maps, as text before and after the number of the sample. -/
def titles : List (Kind × String × String) :=
  [(.height, "Height filtration of image ", ""), (.radial, "Radial filtration of image ", ""), (.dilation, "Dilation filtration of image ", ""), (.erosion, "Erosion filtration of image ", ""),
    (.signedDistance, "Signed-distance filtration of image ", ""), (.density, "Density filtration of image ", ""), (.binarizer, "Binarization of image ", ""), (.inverter, "Inversion of image ", ""),
    (.padder, "Padded version of image ", ""), (.geodesic, "", "-th geodesic distance matrix"), (.consistentRescaling, "", "-th distance matrix after consistent rescaling"),
    (.consecutiveRescaling, "", "-th distance matrix after consecutive rescaling")]

end Gtda.Spec.ImagePlots
