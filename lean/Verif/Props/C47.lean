import Verif.Proof.Helion

/-!
# C47: the Helion kernels compute the recurrence under every tiling

`Helion.IsTiler tile`: every index of a loop belongs to exactly one tile; number, size and order of the tiles are arbitrary, as the
autotuner chooses them.
-/

namespace Props
open Torch Torch.Tensor Spec Phil
variable {α : Type} [CommRing α]

/-- **C47, `hl_lti_recurN`**: state dimension, batch size, length and tiling are arbitrary; one matrix, or one per batch item. -/
theorem C47_lti {tile : Helion.Tiler} (ht : Helion.IsTiler tile) {B N M : Nat} {A : Tensor α} {a : Nat → Nat → Nat → α}
    (hA : MatVals B M M A a) (zi : Nat → Nat → α) (x : Nat → Nat → Nat → α) :
    ∃ h : Nat → Nat → Nat → α, Helion.hlLtiRecurN tile A (t2 B M zi) (t3 B N M x) = .ok (t3 B N M h) ∧
      ∀ b i, h b 0 i = ∑ k ∈ Finset.range M, a b i k * zi b k + x b 0 i ∧
        ∀ t, h b (t + 1) i = ∑ k ∈ Finset.range M, a b i k * h b t k + x b (t + 1) i :=
  ⟨_, Helion.hlLtiRecurN_isMatrixOp tile ht M B N A a zi x hA, fun _ _ => ⟨rfl, fun _ => rfl⟩⟩

example := C47_lti Helion.whole_isTiler (B := 3) (N := 7) (M := 2) (.batched fun i t k => (i : ℤ) + t * k) (fun i t => (i : ℤ) * t)
  (fun i t k => (i : ℤ) + t * k)

/-- **C47, `hl_recurN`**: one sequence of matrices, or one per batch item. -/
theorem C47_lpv {tile : Helion.Tiler} (ht : Helion.IsTiler tile) {B N M : Nat} {A : Tensor α} {a : Nat → Nat → Nat → Nat → α}
    (hA : MatSeq B N M M A a) (zi : Nat → Nat → α) (x : Nat → Nat → Nat → α) :
    ∃ h : Nat → Nat → Nat → α, Helion.hlRecurN tile A (t2 B M zi) (t3 B N M x) = .ok (t3 B N M h) ∧
      ∀ b i, h b 0 i = ∑ k ∈ Finset.range M, a b 0 i k * zi b k + x b 0 i ∧
        ∀ t, h b (t + 1) i = ∑ k ∈ Finset.range M, a b (t + 1) i k * h b t k + x b (t + 1) i :=
  ⟨_, Helion.hlRecurN_isVaryingOp tile ht M B N A a zi x hA, fun _ _ => ⟨rfl, fun _ => rfl⟩⟩

example := C47_lpv Helion.whole_isTiler (B := 3) (N := 7) (M := 2) (.batched fun i t k j => (i : ℤ) + t * k - j) (fun i t => (i : ℤ) * t)
  (fun i t k => (i : ℤ) + t * k)

/-- **C47, two tilings agree.** -/
theorem C47_same {tile tile' : Helion.Tiler} (ht : Helion.IsTiler tile) (ht' : Helion.IsTiler tile') {B N M : Nat} {A : Tensor α}
    {a : Nat → Nat → Nat → Nat → α} (hA : MatSeq B N M M A a) (zi : Nat → Nat → α) (x : Nat → Nat → Nat → α) :
    Helion.hlRecurN tile A (t2 B M zi) (t3 B N M x) = Helion.hlRecurN tile' A (t2 B M zi) (t3 B N M x) :=
  (Helion.hlRecurN_isVaryingOp tile ht M B N A a zi x hA).trans (Helion.hlRecurN_isVaryingOp tile' ht' M B N A a zi x hA).symm

example := C47_same Helion.whole_isTiler Helion.whole_isTiler (B := 3) (N := 7) (M := 2) (.batched fun i t k j => (i : ℤ) + t * k - j)
  (fun i t => (i : ℤ) + t) (fun i t k => (i : ℤ) - t * k)

/-- Some tilings: one tile, one tile per index, and the two halves, the second one first. -/
theorem C47_tiler_cases : Helion.IsTiler (fun n => [List.range n]) ∧ Helion.IsTiler (fun n => (List.range n).map fun i => [i]) ∧
    Helion.IsTiler (fun n => [List.range' (n / 2) (n - n / 2), List.range (n / 2)]) := by
  refine ⟨fun n => by simp, fun n => ?_, fun n => ?_⟩
  · have : ∀ l : List Nat, (l.map fun i => [i]).flatten = l := fun l => by
      induction l with
      | nil => rfl
      | cons a l ih => simpa using ih
    rw [this]
  · have h : List.range n = List.range (n / 2) ++ List.range' (n / 2) (n - n / 2) := by
      rw [List.range_eq_range', List.range_eq_range']
      have := List.range'_append (s := 0) (m := n / 2) (n := n - n / 2) (step := 1)
      rw [show n / 2 + (n - n / 2) = n by omega] at this
      simpa using this.symm
    rw [h]
    simpa using List.perm_append_comm

/-- The value of a small case with the halves as tiles: two batch items, three steps, dimension three. -/
example : at? (Helion.hlRecurN (fun n => [List.range' (n / 2) (n - n / 2), List.range (n / 2)])
    (t4 2 3 3 3 fun b t i j => ((b + t + i + 2 * j : Nat) : ℤ)) (t2 2 3 fun _ _ => 1) (t3 2 3 3 fun b t i => ((b + t + i : Nat) : ℤ)))
    [1, 2, 0] = some 3610 := by decide +kernel

end Props
