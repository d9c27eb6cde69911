import Verif.Proof.HostBounds

/-!
# C39: the compiled CPU kernels and the bounds of their buffers

`Omp.OutOfBounds r`: the run stopped at an access outside of `A` or of `out`.  `lti_recur` never does, for arbitrary tensors.
The matrix ops check neither the batch dimension nor the time dimension of `A`, nor the number of dimensions of `x`: they
accept inputs on which the kernel reads outside of its buffers.  For three-dimensional `x` the exact conditions under which
all accesses are inside are proved, for every scheduler.
-/

namespace Props
open Torch Torch.Tensor Phil Phil.Host Omp

variable {α : Type} [CommRing α]

/-- **C39, `lti_recur`**: all accesses are inside the buffers, whatever the inputs. -/
theorem C39_lti_recur {sch : Scheduler (Regs α) α} (hsch : IsScheduler sch) (a zi x : Tensor α) :
    ¬ OutOfBounds (ltiRecurCpu sch a zi x) :=
  ltiRecurCpu_inside hsch a zi x

example := C39_lti_recur (sequential_isScheduler (ρ := Regs ℤ)) (t1 2 fun i => (i : ℤ) + 2) (t1 2 fun i => (i : ℤ)) (t2 2 7 fun i t => (i : ℤ) * t)

/-- **C39, `lti_recurN`** (partial: three-dimensional `x` and, for batched `A`, one matrix for each item of `x`). -/
theorem C39_lti_recurN_partial {sch : Scheduler (Regs α) α} (hsch : IsScheduler sch) (A zi x : Tensor α) (hx : x.rank = 3)
    (hA : A.rank = 3 → x.size 0 ≤ A.size 0) : ¬ OutOfBounds (ltiRecurNCpu sch A zi x) :=
  ltiRecurNCpu_inside hsch A zi x hx hA

example := C39_lti_recurN_partial (sequential_isScheduler (ρ := Regs ℤ)) (t3 3 2 2 fun i t k => (i : ℤ) + t * k)
  (t2 3 2 fun i t => (i : ℤ) * t) (t3 3 7 2 fun i t k => (i : ℤ) - t * k) rfl (fun _ => by decide)

/-- **C39, `recurN`** (partial: three-dimensional `x` and enough matrices in `A`). -/
theorem C39_recurN_partial {sch : Scheduler (Regs α) α} (hsch : IsScheduler sch) (A zi x : Tensor α) (hx : x.rank = 3)
    (hA3 : A.rank = 3 → x.size 1 ≤ A.size 0)
    (hA4 : A.rank = 4 → x.size 0 * (x.size 1 + 1) ≤ A.size 0 * (A.size 1 + 1)) :
    ¬ OutOfBounds (recurNCpu sch A zi x) :=
  recurNCpu_inside hsch A zi x hx hA3 hA4

theorem oob_step {β γ : Type} {x : Res β} {f : β → Res γ} {v : β} (h : x = .ok v) (h' : OutOfBounds (f v)) :
    OutOfBounds (x >>= f) := by
  rw [h]; exact h'

theorem oob_checked {γ : Type} {c : Prop} [Decidable c] {e : String} {f : Unit → Res γ} (h : c) (h' : OutOfBounds (f ())) :
    OutOfBounds (check c e >>= f) := by
  unfold check
  rw [if_pos h]; exact h'

/-- **C39 fails for `lti_recurN`** with fewer matrices than batch items: the op passes its checks and the kernel reads
outside of `A`, under every schedule. -/
theorem C39_lti_recurN_out_of_bounds {sch : Scheduler (Regs α) α} (hsch : IsScheduler sch) {B B' N M : Nat} (hB : B' < B)
    (hN : 0 < N) (hM : 0 < M) (A : Nat → Nat → Nat → α) (zi : Nat → Nat → α) (x : Nat → Nat → Nat → α) :
    OutOfBounds (ltiRecurNCpu sch (t3 B' M M A) (t2 B M zi) (t3 B N M x)) := by
  unfold ltiRecurNCpu
  refine oob_checked (Or.inr (by rw [rank_t3])) ?_
  refine oob_checked (by rw [rank_t3]) ?_
  refine oob_checked (by rw [size_t3_2, size_t3_n1]) ?_
  refine oob_checked (by rw [size_t3_n1, size_t3_n2]) ?_
  simp only [size_t3_0, size_t3_1, size_t3_n1]
  refine oob_step (unsqueeze_t2_1 _ _ _) ?_
  refine oob_step (cat2_t3_1 _ _ _ _ _ _) ?_
  rw [if_pos (by rw [rank_t3])]
  refine oob_left ?_
  obtain ⟨f, hf⟩ := mem_matBody (α := α) (T := N + 1) (N := M) (fun _ => B' * M * M) B' (le_refl 1) (by omega) hM
  refine parallelFor_oob hsch hB hf ?_
  show ¬ (B' * M * M < (t3 B' M M A).numel)
  rw [numel_t3]; omega

example := C39_lti_recurN_out_of_bounds (sequential_isScheduler (ρ := Regs ℤ)) (B := 3) (B' := 2) (N := 7) (M := 2) (by decide) (by decide)
  (by decide) (fun i t k => (i : ℤ) - t * k) (fun i t => (i : ℤ) * t) (fun i t k => (i : ℤ) - t * k)

/-- **C39 fails for `recurN`** with one coefficient sequence that is shorter than the signal. -/
theorem C39_recurN_out_of_bounds_shared {sch : Scheduler (Regs α) α} (hsch : IsScheduler sch) {B N' N M : Nat} (hB : 0 < B)
    (hN : N' < N) (hM : 0 < M) (A : Nat → Nat → Nat → α) (zi : Nat → Nat → α) (x : Nat → Nat → Nat → α) :
    OutOfBounds (recurNCpu sch (t3 N' M M A) (t2 B M zi) (t3 B N M x)) := by
  unfold recurNCpu
  refine oob_checked (Or.inl (by rw [rank_t3])) ?_
  refine oob_checked (by rw [rank_t3]) ?_
  refine oob_checked (by rw [size_t3_2, size_t3_n1]) ?_
  refine oob_checked (by rw [size_t3_n1, size_t3_n2]) ?_
  simp only [size_t3_0, size_t3_1, size_t3_n1]
  refine oob_step (padDim_t3_n3_left _ _ _ _ _ _) ?_
  refine oob_step (unsqueeze_t2_1 _ _ _) ?_
  refine oob_step (cat2_t3_1 _ _ _ _ _ _) ?_
  rw [if_neg (by rw [rank_t3]; decide)]
  refine oob_left ?_
  obtain ⟨f, hf⟩ := mem_matBody (α := α) (T := N + 1) (N := M) (t := N' + 1) (fun t => t * M * M) 0 (by omega) (by omega) hM
  refine parallelFor_oob hsch hB hf ?_
  simp only [Act.inside, numel_t3]; omega

example := C39_recurN_out_of_bounds_shared (sequential_isScheduler (ρ := Regs ℤ)) (B := 3) (N' := 3) (N := 7) (M := 2) (by decide) (by decide)
  (by decide) (fun i t k => (i : ℤ) - t * k) (fun i t => (i : ℤ) * t) (fun i t k => (i : ℤ) - t * k)

/-- **C39 fails for `recurN`** with batched `A` of too few matrices, e.g. `A` of shape `(1, N, M, M)` with more than one batch
item, which `lpv.state_space` does not reject (`philtorch/lpv/ssm.py:337-581`). -/
theorem C39_recurN_out_of_bounds_batched {sch : Scheduler (Regs α) α} (hsch : IsScheduler sch) {B B' N' N M : Nat}
    (h : B' * (N' + 1) < B * (N + 1)) (hN : 0 < N) (hM : 0 < M) (A : Nat → Nat → Nat → Nat → α) (zi : Nat → Nat → α)
    (x : Nat → Nat → Nat → α) : OutOfBounds (recurNCpu sch (t4 B' N' M M A) (t2 B M zi) (t3 B N M x)) := by
  have hB : 0 < B := by
    rcases Nat.eq_zero_or_pos B with rfl | hB
    · simp at h
    · exact hB
  unfold recurNCpu
  refine oob_checked (Or.inr (by rw [rank_t4])) ?_
  refine oob_checked (by rw [rank_t3]) ?_
  refine oob_checked (by rw [size_t3_2, size_t4_n1]) ?_
  refine oob_checked (by rw [size_t4_n1, size_t4_n2]) ?_
  simp only [size_t3_0, size_t3_1, size_t4_n1]
  refine oob_step (padDim_t4_n3_left _ _ _ _ _ _ _) ?_
  refine oob_step (unsqueeze_t2_1 _ _ _) ?_
  refine oob_step (cat2_t3_1 _ _ _ _ _ _) ?_
  rw [if_pos (by rw [rank_t4])]
  refine oob_left ?_
  obtain ⟨f, hf⟩ := mem_matBody (α := α) (T := N + 1) (N := M) (t := N) (fun t => (B - 1) * (N + 1) * M * M + t * M * M)
    (B - 1) hN (by omega) hM
  refine parallelFor_oob hsch (b := B - 1) (by omega) hf ?_
  simp only [Act.inside, numel_t4]
  have e : (B - 1) * (N + 1) + N + 1 = B * (N + 1) := by
    obtain ⟨c, rfl⟩ : ∃ c, B = c + 1 := ⟨B - 1, by omega⟩
    simp only [Nat.add_sub_cancel]; ring
  have h1 : B' * (N' + 1) * (M * M) ≤ ((B - 1) * (N + 1) + N) * (M * M) := Nat.mul_le_mul_right _ (by omega)
  have e1 : (B - 1) * (N + 1) * M * M + N * M * M = ((B - 1) * (N + 1) + N) * (M * M) := by ring
  have e2 : B' * (N' + 1) * M * M = B' * (N' + 1) * (M * M) := by ring
  rw [e1, e2]; omega

/-- **C39 fails for `lti_recurN`** with a four-dimensional `x` without elements: `out` is empty and the kernel writes to it. -/
theorem C39_lti_recurN_out_of_bounds_rank4 :
    ltiRecurNCpu (α := Int) sequential (t2 1 1 fun _ _ => 2) (ofFn [1, 1, 0] fun _ => 0) (ofFn [1, 1, 1, 0] fun _ => 0) =
      .error "read outside of out" := by
  rfl

/-! ## The hypotheses can be met -/

/-- Two items, three steps, dimension two, with the coefficients the layouts ask for. -/
example : ¬ OutOfBounds (recurNCpu (α := Int) sequential (t4 2 3 2 2 fun b t i j => b + t + i + j) (t2 2 2 fun _ _ => 1)
    (t3 2 3 2 fun _ t _ => t)) :=
  C39_recurN_partial sequential_isScheduler _ _ _ (by rw [rank_t3]) (by rw [rank_t4]; decide)
    (by rw [size_t3_0, size_t3_1, size_t4_0, size_t4_1]; decide)

/-- The shape `lpv.state_space` lets through: one coefficient sequence of shape `(1, N, M, M)` for two items. -/
example : OutOfBounds (recurNCpu (α := Int) sequential (t4 1 3 2 2 fun b t i j => b + t + i + j) (t2 2 2 fun _ _ => 1)
    (t3 2 3 2 fun _ t _ => t)) :=
  C39_recurN_out_of_bounds_batched sequential_isScheduler (by decide) (by decide) (by decide) _ _ _

end Props
