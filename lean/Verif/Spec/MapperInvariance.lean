import Mathlib.Data.List.Perm.Basic
import Verif.Spec.MapperCluster

set_option autoImplicit false

/-!
# Specification: what it means for two Mapper graphs to be the same up to a reordering of the samples

A reordering of `n` samples is a list `σ` of the numbers `0, …, n - 1`, each once: sample `a` of the reordered data is sample `σ[a]` of the original data.
-/

namespace Gtda.Spec

/-- `σ` lists each of `0, …, n - 1` exactly once. -/
def Reorders (n : Nat) (σ : List Nat) : Prop := σ.Perm (List.range n)

/-- The labels `ls'` of reordered data put two samples in the same cluster exactly when the labels `ls` of the original data do so. -/
def SameGrouping {C : Type} (τ : List Nat) (ls ls' : List C) : Prop :=
  ls'.length = τ.length ∧ ∀ a b i j : Nat, τ[a]? = some i → τ[b]? = some j → (ls'[a]? = ls'[b]? ↔ ls[i]? = ls[j]?)

/-- The set `E'` of reordered samples consists of the same samples as the set `E` of original samples. -/
def SameSamples (σ : List Nat) (E' E : List Nat) : Prop := ∀ a i : Nat, σ[a]? = some i → (a ∈ E' ↔ i ∈ E)

/-- An undirected edge recorded with the ends `s` and `d` joins `a` and `b`. -/
def Ends (s d a b : Nat) : Prop := (s = a ∧ d = b) ∨ (s = b ∧ d = a)

end Gtda.Spec
