import Mathlib.Algebra.BigOperators.Ring.Finset
import Mathlib.Algebra.BigOperators.Group.Finset.Sigma
import Mathlib.Tactic.Ring

/-! # Spec: systems whose states correspond through a matrix -/

namespace Spec
open Finset
variable {α : Type} [CommRing α]

/-- `T_{t+1} A_t = A'_t T_t`, `T_{t+1} B_t = B'_t` and `C_t = C'_t T_t` for systems with `M` and `M'` states, `F` inputs and `P` outputs. -/
structure Intertwines (M M' F P : Nat) (T T₁ A A' Bm Bm' C C' : Nat → Nat → α) : Prop where
  states : ∀ i, i < M' → ∀ j, j < M → ∑ k ∈ range M, T₁ i k * A k j = ∑ k ∈ range M', A' i k * T k j
  inputs : ∀ i, i < M' → ∀ f, f < F → ∑ k ∈ range M, T₁ i k * Bm k f = Bm' i f
  outputs : ∀ p, p < P → ∀ j, j < M → C p j = ∑ k ∈ range M', C' p k * T k j

/-- One step of the states. -/
theorem Intertwines.step {M M' F P : Nat} {T T₁ A A' Bm Bm' C C' : Nat → Nat → α} (h : Intertwines M M' F P T T₁ A A' Bm Bm' C C')
    {s s' x : Nat → α} (hs : ∀ m, m < M' → s' m = ∑ k ∈ range M, T m k * s k) (m : Nat) (hm : m < M') :
    ∑ k ∈ range M', A' m k * s' k + ∑ f ∈ range F, Bm' m f * x f =
      ∑ k ∈ range M, T₁ m k * (∑ j ∈ range M, A k j * s j + ∑ f ∈ range F, Bm k f * x f) := by
  have e1 : ∑ k ∈ range M', A' m k * s' k = ∑ j ∈ range M, (∑ k ∈ range M, T₁ m k * A k j) * s j := by
    rw [sum_congr rfl fun k hk => by rw [hs k (mem_range.1 hk), mul_sum], sum_comm]
    refine sum_congr rfl fun j hj => ?_
    rw [h.states m hm j (mem_range.1 hj), sum_mul]
    exact sum_congr rfl fun k _ => by ring
  have e2 : ∑ f ∈ range F, Bm' m f * x f = ∑ f ∈ range F, (∑ k ∈ range M, T₁ m k * Bm k f) * x f :=
    sum_congr rfl fun f hf => by rw [h.inputs m hm f (mem_range.1 hf)]
  rw [e1, e2]
  simp only [sum_mul, mul_add, mul_sum, sum_add_distrib, mul_assoc]
  rw [sum_comm, sum_comm (s := range F)]

/-- The outputs. -/
theorem Intertwines.out {M M' F P : Nat} {T T₁ A A' Bm Bm' C C' : Nat → Nat → α} (h : Intertwines M M' F P T T₁ A A' Bm Bm' C C')
    {s s' : Nat → α} (hs : ∀ m, m < M' → s' m = ∑ k ∈ range M, T m k * s k) (p : Nat) (hp : p < P) :
    ∑ k ∈ range M', C' p k * s' k = ∑ k ∈ range M, C p k * s k := by
  rw [sum_congr rfl fun k hk => by rw [hs k (mem_range.1 hk), mul_sum], sum_comm]
  refine sum_congr rfl fun j hj => ?_
  rw [h.outputs p hp j (mem_range.1 hj), sum_mul]
  exact sum_congr rfl fun k _ => by ring

end Spec
