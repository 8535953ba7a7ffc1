import Verif.Spec.ImagePlots
import Verif.Props.Plotting
import Verif.Model.Images

set_option autoImplicit false
set_option linter.unusedSectionVars false

/-!
# C131: plots of images and matrices
-/

namespace Gtda.Props.ImagePlots
open Gtda.Py Gtda.ImagePlots Gtda.Spec.ImagePlots

theorem get_append {K : Type} (d t : PropTree K) (path : List String) : PropTree.get (d ++ t) path = (PropTree.get d path).orElse fun _ => PropTree.get t path := by
  unfold PropTree.get
  rw [List.find?_append]
  cases List.find? (fun e => decide (e.1 = path)) d <;> rfl

theorem timesOne_eq {K : Type} [Field K] (d : Data K) : d.timesOne = numbers d := by
  cases d with
  | bools z => rfl
  | nums z => simp [Data.timesOne, numbers]

end Gtda.Props.ImagePlots

namespace Gtda.Props
open Gtda.Py Gtda.Diagrams Gtda.Plotting Gtda.ImagePlots Gtda.Spec.ImagePlots Gtda.Props.ImagePlots

section
variable {K : Type} [Field K]

/-- **C131**: without `plotly_params`, the heat map shows the image: the first row at the top, or at the bottom if `origin` is `"lower"`, with the title and colour scale asked for. -/
theorem C131_heatmap (known : Names) (data : Data K) (colorscale origin : String) (ho : origin = "upper" ∨ origin = "lower") (title : Option String) :
    ∃ f, plotHeatmap known data none none colorscale origin title none = .ok f ∧
      Shows f (if origin = "upper" then numbers data else (numbers data).reverse) ∧
      f.trace.get ["colorscale"] = some (.text colorscale) ∧ f.layout.get ["title"] = title.map .text := by
  rcases ho with rfl | rfl
  · refine ⟨_, rfl, ⟨rfl, rfl, .inl ⟨rfl, ?_⟩⟩, rfl, by cases title <;> rfl⟩
    rw [← timesOne_eq]; rfl
  · refine ⟨_, rfl, ⟨rfl, rfl, .inr ⟨rfl, ?_⟩⟩, rfl, by cases title <;> rfl⟩
    rw [← timesOne_eq]
    show some (Value.image data.timesOne) = some (.image (data.timesOne.reverse).reverse)
    rw [List.reverse_reverse]

/-- **C131**: coordinates, if given, are handed on. -/
theorem C131_coordinates (known : Names) (data : Data K) (x y : Option (List K)) (colorscale origin : String) (title : Option String) :
    ∃ f, plotHeatmap known data x y colorscale origin title none = .ok f ∧ f.trace.get ["z"] = some (.image (numbers data)) ∧ f.trace.get ["x"] = x.map .row ∧ f.trace.get ["y"] = y.map .row := by
  refine ⟨_, rfl, ?_, ?_, ?_⟩
  · rw [← timesOne_eq]; rfl
  · cases x <;> cases y <;> rfl
  · cases x <;> cases y <;> rfl

/-- **C131**: `plotly_params` replaces exactly the properties it gives under `"trace"` and `"layout"`; all others are as without it. Other keys have no effect. -/
theorem C131_params (known : Names) (data : Data K) (x y : Option (List K)) (colorscale origin : String) (title : Option String) (d : PlotlyParams K)
    (ht : ∀ t, d.lookup "trace" = some t → ∀ e ∈ t, known.trace e.1 = true) (hl : ∀ t, d.lookup "layout" = some t → ∀ e ∈ t, known.layout e.1 = true) :
    ∃ f f₀, plotHeatmap known data x y colorscale origin title (some d) = .ok f ∧ plotHeatmap known data x y colorscale origin title none = .ok f₀ ∧
      (∀ path, f.trace.get path = given (((d.lookup "trace").bind fun t => t.get path).map some) (f₀.trace.get path)) ∧
      ∀ path, f.layout.get path = given (((d.lookup "layout").bind fun t => t.get path).map some) (f₀.layout.get path) := by
  have hu : ∀ (kn : List String → Bool) (t : PropTree K) (o : Option (PropTree K)), (∀ u, o = some u → ∀ e ∈ u, kn e.1 = true) →
      ∃ t', update kn t o = .ok t' ∧ ∀ path, PropTree.get t' path = given ((o.bind fun u => PropTree.get u path).map some) (PropTree.get t path) := by
    intro kn t o h
    cases o with
    | none => exact ⟨t, rfl, fun path => rfl⟩
    | some u =>
      refine ⟨u ++ t, ?_, fun path => ?_⟩
      · show (if (u.all fun e => kn e.1) = true then _ else _) = _
        rw [if_pos (List.all_eq_true.2 (h u rfl))]
      · rw [get_append]
        cases hg : PropTree.get u path with
        | none => simp only [Option.bind_some, hg]; rfl
        | some v => simp only [Option.bind_some, hg]; rfl
  cases d with
  | nil => exact ⟨_, _, rfl, rfl, fun _ => rfl, fun _ => rfl⟩
  | cons e d =>
    unfold plotHeatmap
    dsimp only
    generalize ([(["z"], Value.image data.timesOne)] ++ (match x with | none => [] | some l => [(["x"], .row l)]) ++ (match y with | none => [] | some l => [(["y"], .row l)]) ++
      [(["colorscale"], .text colorscale)] : PropTree K) = t
    generalize ([(["xaxis", "scaleanchor"], Value.text "y"), (["xaxis", "constrain"], .text "domain"), (["yaxis", "autorange"], if origin = "lower" then .flag true else .text "reversed"),
      (["yaxis", "constrain"], .text "domain"), (["plot_bgcolor"], .text "white")] ++ (match title with | none => [] | some t => [(["title"], .text t)]) : PropTree K) = l
    obtain ⟨t', h1, h2⟩ := hu known.trace t _ ht
    obtain ⟨l', h3, h4⟩ := hu known.layout l _ hl
    exact ⟨⟨l', t'⟩, ⟨l, t⟩, by rw [h1, ok_bind, h3]; rfl, rfl, h2, h4⟩

/-- **C131**: a property which plotly does not know is refused. -/
theorem C131_unknown_property (known : Names) (data : Data K) (x y : Option (List K)) (colorscale origin : String) (title : Option String) (d : PlotlyParams K) (t : PropTree K) (e : List String × Value K)
    (he : e ∈ t) (h : (d.lookup "trace" = some t ∧ known.trace e.1 = false) ∨ (d.lookup "layout" = some t ∧ known.layout e.1 = false)) :
    plotHeatmap known data x y colorscale origin title (some d) = .error .valueError := by
  have hbad : ∀ (kn : List String → Bool) (s : PropTree K), kn e.1 = false → update kn s (some t) = .error .valueError := by
    intro kn s hk
    show (if (t.all fun e => kn e.1) = true then _ else _) = _
    rw [if_neg]
    intro hall
    rw [List.all_eq_true.1 hall e he] at hk
    exact absurd hk (by simp)
  have hor : ∀ (kn : List String → Bool) (s : PropTree K) (o : Option (PropTree K)), (∃ s', update kn s o = .ok s') ∨ update kn s o = .error .valueError := by
    intro kn s o
    cases o with
    | none => exact .inl ⟨_, rfl⟩
    | some u =>
      by_cases hu : (u.all fun e => kn e.1) = true
      · exact .inl ⟨_, if_pos hu⟩
      · exact .inr (if_neg hu)
  cases d with
  | nil => rcases h with h | h <;> exact absurd h.1 (by simp)
  | cons a d =>
    unfold plotHeatmap
    dsimp only
    rcases h with ⟨h1, h2⟩ | ⟨h1, h2⟩
    · rw [h1, hbad _ _ h2]; rfl
    · rw [h1]
      have key : ∀ (s : PropTree K) (g : PropTree K → PropTree K), (update known.trace s (List.lookup "trace" (a :: d)) >>= fun tr => update known.layout (g tr) (some t) >>= fun la =>
          (.ok ⟨la, tr⟩ : PyM (Figure K))) = .error .valueError := by
        intro s g
        rcases hor known.trace s (List.lookup "trace" (a :: d)) with ⟨s', hs⟩ | hs
        · rw [hs, ok_bind, hbad _ _ h2]; rfl
        · rw [hs]; rfl
      exact key _ fun _ => _

theorem title_mem (k : Kind) (sample : Int) : ∃ before after, (k, before, after) ∈ titles ∧ k.title sample = before ++ toString sample ++ after := by
  cases k
  · exact ⟨"Height filtration of image ", "", List.Mem.head _, by rw [String.append_empty]; rfl⟩
  · exact ⟨"Radial filtration of image ", "", List.Mem.tail _ (List.Mem.head _), by rw [String.append_empty]; rfl⟩
  · exact ⟨"Dilation filtration of image ", "", List.Mem.tail _ (List.Mem.tail _ (List.Mem.head _)), by rw [String.append_empty]; rfl⟩
  · exact ⟨"Erosion filtration of image ", "", List.Mem.tail _ (List.Mem.tail _ (List.Mem.tail _ (List.Mem.head _))), by rw [String.append_empty]; rfl⟩
  · exact ⟨"Signed-distance filtration of image ", "", List.Mem.tail _ (List.Mem.tail _ (List.Mem.tail _ (List.Mem.tail _ (List.Mem.head _)))), by rw [String.append_empty]; rfl⟩
  · exact ⟨"Density filtration of image ", "", List.Mem.tail _ (List.Mem.tail _ (List.Mem.tail _ (List.Mem.tail _ (List.Mem.tail _ (List.Mem.head _))))), by rw [String.append_empty]; rfl⟩
  · exact ⟨"Binarization of image ", "", List.Mem.tail _ (List.Mem.tail _ (List.Mem.tail _ (List.Mem.tail _ (List.Mem.tail _ (List.Mem.tail _ (List.Mem.head _)))))), by rw [String.append_empty]; rfl⟩
  · exact ⟨"Inversion of image ", "", List.Mem.tail _ (List.Mem.tail _ (List.Mem.tail _ (List.Mem.tail _ (List.Mem.tail _ (List.Mem.tail _ (List.Mem.tail _ (List.Mem.head _))))))), by rw [String.append_empty]; rfl⟩
  · exact ⟨"Padded version of image ", "", List.Mem.tail _ (List.Mem.tail _ (List.Mem.tail _ (List.Mem.tail _ (List.Mem.tail _ (List.Mem.tail _ (List.Mem.tail _ (List.Mem.tail _ (List.Mem.head _)))))))), by rw [String.append_empty]; rfl⟩
  · exact ⟨"", "-th geodesic distance matrix", List.Mem.tail _ (List.Mem.tail _ (List.Mem.tail _ (List.Mem.tail _ (List.Mem.tail _ (List.Mem.tail _ (List.Mem.tail _ (List.Mem.tail _ (List.Mem.tail _ (List.Mem.head _))))))))), by rw [String.empty_append]; rfl⟩
  · exact ⟨"", "-th distance matrix after consistent rescaling", List.Mem.tail _ (List.Mem.tail _ (List.Mem.tail _ (List.Mem.tail _ (List.Mem.tail _ (List.Mem.tail _ (List.Mem.tail _ (List.Mem.tail _ (List.Mem.tail _ (List.Mem.tail _ (List.Mem.head _)))))))))), by rw [String.empty_append]; rfl⟩
  · exact ⟨"", "-th distance matrix after consecutive rescaling", List.Mem.tail _ (List.Mem.tail _ (List.Mem.tail _ (List.Mem.tail _ (List.Mem.tail _ (List.Mem.tail _ (List.Mem.tail _ (List.Mem.tail _ (List.Mem.tail _ (List.Mem.tail _ (List.Mem.tail _ (List.Mem.head _))))))))))), by rw [String.empty_append]; rfl⟩

/-- **C131**, the `plot` methods of image transformers and of transformers returning distance matrices: `plot(Xt, sample)` shows `Xt[sample]`, samples being counted from either end, with the first row at the top
unless `origin` is `"lower"` (a parameter of the image transformers only), in grey for images and in blue for distance matrices unless told otherwise, and with a title which names the class and the sample. -/
theorem C131_plot (known : Names) (k : Kind) (Xt : List (Data K)) (i : Nat) (hi : i < Xt.length) (sample : Int) (hs : sample = i ∨ sample = (i : Int) - Xt.length)
    (colorscale origin : Option String) (ho : origin = none ∨ origin = some "upper" ∨ origin = some "lower") :
    ∃ f, heatmapPlot known k (npIndex Xt) sample colorscale origin none = .ok f ∧
      Shows f (if k ∉ [.geodesic, .consistentRescaling, .consecutiveRescaling] ∧ origin = some "lower" then (numbers Xt[i]).reverse else numbers Xt[i]) ∧
      f.trace.get ["colorscale"] = some (.text (given colorscale (if k ∉ [.geodesic, .consistentRescaling, .consecutiveRescaling] then "greys" else "blues"))) ∧
      ∃ before after, (k, before, after) ∈ titles ∧ f.layout.get ["title"] = some (.text (before ++ toString sample ++ after)) := by
  have hmat : (k ∉ [Kind.geodesic, .consistentRescaling, .consecutiveRescaling]) = (k.hasOrigin = true) := by cases k <;> simp [Kind.hasOrigin]
  simp only [hmat]
  have hat : npIndex Xt sample = .ok Xt[i] := by
    rw [npIndex_ok_iff]
    exact ⟨i, hs, hi, rfl⟩
  unfold heatmapPlot
  rw [hat, ok_bind]
  have hn : ∀ d : Data K, numbers (if k.times then .nums d.timesOne else d) = numbers d := by
    intro d
    cases k.times with
    | false => rfl
    | true => exact timesOne_eq d
  have horig : (if k.hasOrigin then origin.getD "upper" else "upper") = "upper" ∨ (if k.hasOrigin then origin.getD "upper" else "upper") = "lower" := by
    cases k.hasOrigin with
    | false => exact .inl rfl
    | true => rcases ho with rfl | rfl | rfl <;> simp
  obtain ⟨f, h1, h2, h3, h4⟩ := C131_heatmap known (if k.times then .nums Xt[i].timesOne else Xt[i]) (colorscale.getD k.colorscale) _ horig (some (k.title sample))
  refine ⟨f, h1, ?_, ?_, ?_⟩
  · rw [hn] at h2
    convert h2 using 1
    cases hk : k.hasOrigin with
    | false => simp
    | true => rcases ho with rfl | rfl | rfl <;> simp
  · rw [h3]
    cases colorscale <;> rfl
  · obtain ⟨before, after, h5, h6⟩ := title_mem k sample
    exact ⟨before, after, h5, by rw [h4, h6]; rfl⟩

/-- **C131**: a sample out of range raises `IndexError`. -/
theorem C131_out_of_range (known : Names) (k : Kind) (Xt : List (Data K)) (sample : Int) (h : (Xt.length : Int) ≤ sample ∨ sample < -(Xt.length : Int)) (colorscale origin : Option String)
    (d : Option (PlotlyParams K)) : heatmapPlot known k (npIndex Xt) sample colorscale origin d = .error .indexError := by
  have : npIndex Xt sample = .error .indexError := by
    unfold npIndex
    dsimp only
    rcases h with h | h
    · have h0 : ¬ sample < 0 := by omega
      rw [if_neg h0, if_neg h0, List.getElem?_eq_none (by omega)]
    · have h0 : sample < 0 := by omega
      rw [if_pos h0, if_pos (by omega)]
  unfold heatmapPlot
  rw [this]
  rfl

/-- **C131**: but `origin` is not checked: any other string, such as `"Lower"`, draws the image as `"upper"` does. -/
theorem C131_refuted_origin (known : Names) (data : Data K) (colorscale origin : String) (ho : origin ≠ "lower") (title : Option String) (d : Option (PlotlyParams K)) :
    plotHeatmap known data none none colorscale origin title d = plotHeatmap known data none none colorscale "upper" title d := by
  unfold plotHeatmap
  rw [if_neg ho]
  rfl

/-- **C131**: and keys of `plotly_params` are not checked: `{"traces": …}`, the key used for plots of persistence diagrams, is accepted without effect. -/
theorem C131_refuted_keys (known : Names) (data : Data K) (x y : Option (List K)) (colorscale origin : String) (title : Option String) (t : PropTree K) :
    plotHeatmap known data x y colorscale origin title (some [("traces", t)]) = plotHeatmap known data x y colorscale origin title none := rfl

end

/-! ### Point clouds and diagrams -/

/-- **C131**, `TakensEmbedding.plot` and `ImageToPointCloud.plot` draw every point of `Xt[sample]`, in order, at its first two coordinates if there are two, else at its first three. -/
theorem C131_clouds {α : Type} (Xt : List (Nat × List (List α))) (i : Nat) (hi : i < Xt.length) (sample : Int) (hs : sample = i ∨ sample = (i : Int) - Xt.length)
    (hc : ∀ p ∈ Xt[i].2, p.length = Xt[i].1) (h2 : 2 ≤ Xt[i].1) :
    ∃ f, cloudPlot (npIndex Xt) sample = .ok f ∧
      ((Xt[i].1 = 2 ∧ ∃ x y, f = .two x y (List.range Xt[i].2.length) ∧ x.map some = Xt[i].2.map (fun p => p[0]?) ∧ y.map some = Xt[i].2.map (fun p => p[1]?)) ∨
      (3 ≤ Xt[i].1 ∧ ∃ x y z, f = .three x y z (List.range Xt[i].2.length) ∧ x.map some = Xt[i].2.map (fun p => p[0]?) ∧ y.map some = Xt[i].2.map (fun p => p[1]?) ∧
        z.map some = Xt[i].2.map (fun p => p[2]?))) := by
  have hat : npIndex Xt sample = .ok Xt[i] := by
    rw [npIndex_ok_iff]
    exact ⟨i, hs, hi, rfl⟩
  have hcol : ∀ (n : Nat) (cloud : List (List α)) (j : Nat), (∀ p ∈ cloud, p.length = n) → j < n → ∃ x, cloudColumn cloud j = .ok x ∧ x.map some = cloud.map fun p => p[j]? := by
    intro n cloud j h hj
    induction cloud with
    | nil => exact ⟨[], rfl, rfl⟩
    | cons p cloud ih =>
      obtain ⟨x, hx, hx'⟩ := ih fun p hp => h p (List.mem_cons_of_mem _ hp)
      have hp : j < p.length := by rw [h p List.mem_cons_self]; exact hj
      have hn : npIndex p (j : Int) = .ok p[j] := by
        rw [npIndex_ok_iff]
        exact ⟨j, .inl rfl, hp, rfl⟩
      refine ⟨p[j] :: x, ?_, ?_⟩
      · unfold cloudColumn at hx ⊢
        rw [List.mapM_cons, hn, ok_bind, hx]
        rfl
      · rw [List.map_cons, List.map_cons, hx', List.getElem?_eq_getElem hp]
  unfold cloudPlot
  rw [hat, ok_bind]
  generalize Xt[i] = c at hc h2 ⊢
  obtain ⟨n, cloud⟩ := c
  dsimp only at hc h2 ⊢
  obtain ⟨x, hx, hx'⟩ := hcol n cloud 0 hc (by omega)
  obtain ⟨y, hy, hy'⟩ := hcol n cloud 1 hc (by omega)
  have hck : Gtda.Validation.checkParam dimensionRef .none = .ok () := rfl
  unfold plotPointCloud
  rw [hck, ok_bind]
  dsimp only [effectiveDimension]
  rw [if_neg (by omega)]
  by_cases h : n = 2
  · subst h
    rw [if_pos (by rfl), hx, hy]
    exact ⟨_, rfl, .inl ⟨rfl, x, y, rfl, hx', hy'⟩⟩
  · obtain ⟨z, hz, hz'⟩ := hcol n cloud 2 hc (by omega)
    rw [if_neg (by omega), if_pos (by omega), hx, hy, hz]
    exact ⟨_, rfl, .inr ⟨by omega, x, y, z, rfl, hx', hy', hz'⟩⟩

/-- **C131**, `Filtering.plot`: the dimensions drawn are those asked for, by default those that were filtered; before `fit` there is no default. -/
theorem C131_filtering {K Q : Type} [Field K] [LinearOrder K] [LinearOrder Q] (print : WithTop K → WithTop K → String) (label : Q → String) (dims hdims : Option (List Q))
    (Xt : List (List (Pt (WithTop K) Q))) (i : Nat) (hi : i < Xt.length) (sample : Int) (hs : sample = i ∨ sample = (i : Int) - Xt.length) :
    filteringPlot print label dims hdims (npIndex Xt) sample =
      match hdims, dims with
      | some l, _ => .ok (plotDiagram print label (some l) Xt[i])
      | none, some l => .ok (plotDiagram print label (some l) Xt[i])
      | none, none => .error .attributeError := by
  have hat : npIndex Xt sample = .ok Xt[i] := by
    rw [npIndex_ok_iff]
    exact ⟨i, hs, hi, rfl⟩
  cases hdims with
  | some l => simp only [filteringPlot, diagramPlot, hat]; rfl
  | none =>
    cases dims with
    | none => rfl
    | some l => simp only [filteringPlot, diagramPlot, hat]; rfl

/-! ### `fit_transform_plot` -/

/-- **C131**, `fit_transform_plot`: the object is fitted on the whole collection, and the figure is that of `plot` on the transform of the whole collection (`fit_transform`), if the fitted object transforms samples
one by one; the transform of this sample alone is returned. -/
theorem C131_fit_transform_plot {O A B F : Type} (fit : O → List A → O × PyM Unit) (transform : O → List A → PyM (List B)) (plot : O → (Int → PyM B) → Int → PyM F) (o : O) (X : List A)
    (f : A → PyM B) (ht : ∀ Y, Y ≠ [] → transform (fit o X).1 Y = Y.mapM f) (hp : ∀ o at₁ at₂ s, at₁ s = at₂ s → plot o at₁ s = plot o at₂ s)
    (hfit : (fit o X).2 = .ok ()) (R : List B) (hR : transform (fit o X).1 X = .ok R) (i : Nat) (hi : i < X.length) (s : Int) (hs : s = i ∨ (s = (i : Int) - X.length ∧ s ≠ -1)) (fig : F)
    (hfig : plot (fit o X).1 (npIndex R) s = .ok fig) :
    ∃ y, R[i]? = some y ∧ fitTransformPlot fit transform plot o X s = ((fit o X).1, .ok ([y], fig)) := by
  obtain ⟨y, h1, h2⟩ := C102_transform_plot (transform (fit o X).1) f (plot (fit o X).1) ht (hp _) X R hR i hi s hs fig hfig
  refine ⟨y, h1, ?_⟩
  unfold fitTransformPlot
  rw [hfit]
  dsimp only
  rw [h2]

/-- **C131**: but the last sample cannot be asked for as `sample=-1`, as it can in `plot`: the slice `X[-1:0]` is empty, and the exception of `transform` for no samples is raised. -/
theorem C131_refuted_last_sample {O A B F : Type} (fit : O → List A → O × PyM Unit) (transform : O → List A → PyM (List B)) (plot : O → (Int → PyM B) → Int → PyM F) (o : O) (X : List A)
    (hfit : (fit o X).2 = .ok ()) (e : PyErr) (he : transform (fit o X).1 [] = .error e) : fitTransformPlot fit transform plot o X (-1) = ((fit o X).1, .error e) := by
  unfold fitTransformPlot
  rw [hfit]
  dsimp only
  rw [C102_refuted_minus_one _ _ _ e he]

/-- **C131**: if `fit` raises, so does `fit_transform_plot`, and the object is as `fit` left it. -/
theorem C131_fit_fails {O A B F : Type} (fit : O → List A → O × PyM Unit) (transform : O → List A → PyM (List B)) (plot : O → (Int → PyM B) → Int → PyM F) (o : O) (X : List A) (s : Int)
    (e : PyErr) (h : (fit o X).2 = .error e) : fitTransformPlot fit transform plot o X s = ((fit o X).1, .error e) := by
  unfold fitTransformPlot
  rw [h]

/-! ### Examples -/

/-- Names known in the examples. -/
def ImagePlots.exNames : Names := ⟨fun p => decide (p ∈ [["title"], ["yaxis", "autorange"]]), fun p => decide (p = ["colorscale"])⟩

/-- The rows of a boolean image are shown as 0 and 1. -/
example : ∃ f, heatmapPlot (K := ℚ) ImagePlots.exNames .binarizer (npIndex [.bools [[true, false]], .bools [[true, true], [false, false]]]) (-1) none (some "lower") none = .ok f ∧
    Shows f [[0, 0], [1, 1]] ∧ f.layout.get ["title"] = some (.text "Binarization of image -1") := ⟨_, rfl, ⟨rfl, rfl, .inr ⟨rfl, by decide +kernel⟩⟩, rfl⟩

/-- A title given in `plotly_params` replaces that of the class; the rest remains. -/
example : ∃ f, heatmapPlot (K := ℚ) ImagePlots.exNames .height (npIndex [.nums [[1, 2]]]) 0 none none (some [("layout", [(["title"], .text "mine")])]) = .ok f ∧
    f.layout.get ["title"] = some (.text "mine") ∧ TopDown f := ⟨_, rfl, rfl, rfl⟩

/-- Binarizing lists of pixels by the largest training value, as an object: hypotheses of the theorem on `fit_transform_plot` hold. -/
def ImagePlots.exFit (o : Option ℚ) (X : List (List ℚ)) : Option ℚ × PyM Unit :=
  match npMax X.flatten with
  | .error e => (o, .error e)
  | .ok m => (some m, .ok ())

/-- See above. -/
def ImagePlots.exTransform (o : Option ℚ) (X : List (List ℚ)) : PyM (List (List Bool)) :=
  match o with
  | none => .error .notFitted
  | some m => X.mapM fun r => .ok (r.map fun x => decide (1 / 2 < x / m))

example : (∀ Y, Y ≠ [] → ImagePlots.exTransform (ImagePlots.exFit none [[1, 4], [3, 1]]).1 Y = Y.mapM fun r => .ok (r.map fun x => decide (1 / 2 < x / (4 : ℚ)))) ∧
    fitTransformPlot ImagePlots.exFit ImagePlots.exTransform (fun _ at_ s => at_ s) none [[1, 4], [3, 1]] 1 = (some 4, .ok ([[true, false]], [true, false])) := by
  refine ⟨fun Y _ => rfl, by decide +kernel⟩

/-- The last sample, by `sample=-1`, with a `transform` that refuses to work on no samples. -/
example : fitTransformPlot ImagePlots.exFit (fun o Y => if Y = [] then .error .valueError else ImagePlots.exTransform o Y) (fun _ at_ s => at_ s) none [[1, 4], [3, 1]] (-1) = (some 4, .error .valueError) := by
  decide +kernel

end Gtda.Props
