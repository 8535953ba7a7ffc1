import Verif.Model.MapperPipeline
import Mathlib.Data.List.Basic

set_option autoImplicit false

/-!
# Specification vocabulary for the shape of Mapper graphs
-/

namespace Gtda.Spec
open Gtda.Mapper

/-- The common elements of two nodes. -/
def common {P C : Type} (u v : Node P C) : List Nat := u.elements.filter (· ∈ v.elements)

/-- The edges of a Mapper graph, in terms of its nodes: at most one edge between two nodes, no loops, and an edge exactly if the nodes belong to different pullback sets and have at least one and at least
`minInt` common elements; their number is the weight, and they are stored with the edge if wanted. -/
def EdgesOf {P C : Type} (minInt : Int) (store : Bool) (G : Graph P C) : Prop :=
  (G.edges.map fun e => (e.src, e.dst)).Nodup ∧ (∀ e ∈ G.edges, e.src < e.dst ∧ e.dst < G.nodes.length) ∧
  ∀ (a b : Nat) (u v : Node P C), G.nodes[a]? = some u → G.nodes[b]? = some v → a < b → ∀ e : Edge,
    (e ∈ G.edges ∧ e.src = a ∧ e.dst = b ↔
      u.set ≠ v.set ∧ 1 ≤ (common u v).length ∧ minInt ≤ ((common u v).length : Int) ∧ e = ⟨a, b, (common u v).length, if store then some (common u v) else none⟩)

/-- The number of nodes a sample is in. -/
def nodesWith {P C : Type} (G : Graph P C) (i : Nat) : Nat := G.nodes.countP fun v => decide (i ∈ v.elements)

/-- The sum of the sizes of all nodes. -/
def totalSize {P C : Type} (G : Graph P C) : Nat := (G.nodes.map fun v => v.elements.length).sum

/-- The sum of the weights of all edges. -/
def totalWeight {P C : Type} (G : Graph P C) : Nat := (G.edges.map fun e => e.weight).sum

/-- There is an edge between nodes number `a` and `b`. -/
def Adjacent {P C : Type} (G : Graph P C) (a b : Nat) : Prop := ∃ e ∈ G.edges, (e.src = a ∧ e.dst = b) ∨ (e.src = b ∧ e.dst = a)

/-- A run of a Mapper pipeline on data `X` to which nothing is wrong: scaler and filter function return `V`, one row of `d` numbers per sample; the clustering preprocessing returns `Y`, one row per sample; the
cover is one of those of the library with parameters in their ranges, and no column of filter values is constant unless there is one interval; the clusterer gives one label to each sample of every portion
of the data (a square matrix, if it is `precomputed`). -/
structure MapperRun {K W C : Type} [Field K] [LinearOrder K] (scaler filterFunc prep : List (List K) → Py.PyM (List (List K))) (cover : CoverKind K) (p : CoverParams K) (d : Nat) (c : Clusterer K W C) (pre : Bool)
    (X V Y : List (List K)) : Prop where
  data : X ≠ []
  filter : ∃ S, scaler X = .ok S ∧ filterFunc S = .ok V
  prep : prep X = .ok Y
  values : V.length = X.length ∧ ∀ r ∈ V, r.length = d
  rows : Y.length = X.length ∧ Y.headD [] ≠ []
  cover : (cover = .oneDimensional p ∧ d = 1) ∨ (cover = .cubical p ∧ 1 ≤ d)
  intervals : 1 ≤ p.n ∧ 0 < p.f ∧ p.f < 1
  spread : p.n = 1 ∨ ∀ j, j < d → ∃ r ∈ V, ∃ s ∈ V, r[j]? ≠ s[j]?
  clusterer : c.isMixin = true ∧ (c.metrics = [pre] ∨ (c.metrics = [] ∧ pre = false)) ∧ (pre = true → ∀ r ∈ Y, r.length = Y.length)
  labels : ∀ sub, sub ≠ [] → ∃ ls, c.labels sub none = .ok ls ∧ ls.length = sub.length

/-- All tasks of the parallel clustering are run: one for each set of the cover. -/
def AllTasks {K : Type} [Field K] [LinearOrder K] [FloorRing K] (cover : CoverKind K) (V : List (List K)) (order : List Nat) : Prop :=
  ∀ masks, coverKindFitTransform cover V = .ok masks → ∀ k, k < masks.length → k ∈ order

end Gtda.Spec
