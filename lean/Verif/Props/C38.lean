import Verif.Proof.HostKernels
import Mathlib.NumberTheory.Zsqrtd.GaussianInt

/-!
# C38: the compiled CPU kernels compute the recurrence under every thread schedule

A scheduler picks, for the loop over the batch items, any order of the individual memory accesses in which the accesses of
each item are in program order (`Omp.IsScheduler`, Verif/Model/Omp.lean).  For every such scheduler the ops return exactly
the recurrence (`IsScalarOp`, `IsMatrixOp`, `IsVaryingOp` in Verif/Spec/Ops.lean: every batch size, length, state dimension,
every layout of the coefficients).
-/

namespace Props
open Torch Torch.Tensor Spec Phil Phil.Host Omp

variable {α : Type} [CommRing α]

/-! ## The hypotheses can be met: one thread, and two threads interleaved -/

omit [CommRing α] in
/-- Running the iterations one after the other is a schedule. -/
theorem C38_sequential_case : IsScheduler (sequential : Scheduler (Regs α) α) := sequential_isScheduler

/-- Two threads that alternate after every access. -/
def zigzag {β : Type} : List β → List β → List (Nat × β)
  | [], q => q.map fun a => (1, a)
  | p, [] => p.map fun a => (0, a)
  | a :: p, b :: q => (0, a) :: (1, b) :: zigzag p q

/-- Run a loop with two iterations on two alternating threads. -/
def alternating : Scheduler (Regs α) α := fun n p => if n = 2 then zigzag (p 0) (p 1) else sequential n p

theorem interleaves_one {β : Type} (b : Nat) (l : List β) (f : Nat → List β) (h : f b = l) (h' : ∀ c, c ≠ b → f c = []) :
    Interleaves f (l.map fun a => (b, a)) := by
  induction l generalizing f with
  | nil => exact .done f fun c => by by_cases hc : c = b; · rw [hc, h]
                                     · exact h' c hc
  | cons a l ih =>
    exact .step f b a l _ h (ih _ (Function.update_self ..) fun c hc => by rw [Function.update_of_ne hc, h' c hc])

theorem interleaves_zigzag {β : Type} (p q : List β) (f : Nat → List β) (h0 : f 0 = p) (h1 : f 1 = q)
    (h2 : ∀ c, 2 ≤ c → f c = []) : Interleaves f (zigzag p q) := by
  induction p generalizing q f with
  | nil =>
    unfold zigzag
    refine interleaves_one 1 q f h1 fun c hc => ?_
    rcases Nat.eq_zero_or_pos c with rfl | h
    · exact h0
    · exact h2 c (by omega)
  | cons a p ih =>
    cases q with
    | nil =>
      unfold zigzag
      refine interleaves_one 0 _ f h0 fun c hc => ?_
      by_cases h : c = 1
      · rw [h, h1]
      · exact h2 c (by omega)
    | cons b q =>
      unfold zigzag
      refine .step f 0 a p _ h0 (.step _ 1 b q _ (by rw [Function.update_of_ne (by decide)]; exact h1) (ih q _ ?_ ?_ ?_))
      · rw [Function.update_of_ne (by decide), Function.update_self]
      · rw [Function.update_self]
      · intro c hc
        rw [Function.update_of_ne (by omega), Function.update_of_ne (by omega), h2 c hc]

omit [CommRing α] in
/-- The two alternating threads are a schedule. -/
theorem C38_alternating_case : IsScheduler (alternating : Scheduler (Regs α) α) := by
  intro n p
  unfold alternating
  split
  · subst_vars
    refine interleaves_zigzag _ _ _ rfl rfl fun c hc => ?_
    unfold iters; rw [if_neg (by omega)]
  · exact sequential_isScheduler n p

/-! ## The kernels -/

/-- **C38, `lti_recur`.** -/
theorem C38_lti_recur {sch : Scheduler (Regs α) α} (hsch : IsScheduler sch) : IsScalarOp (ltiRecurCpu sch) :=
  ltiRecurCpu_isScalarOp hsch

example := C38_lti_recur (α := ℤ) C38_alternating_case

/-- **C38, `lti_recurN` and `lti_recur2`.** -/
theorem C38_lti_recurN {sch : Scheduler (Regs α) α} (hsch : IsScheduler sch) (M : Nat) : IsMatrixOp M (ltiRecurNCpu sch) :=
  ltiRecurNCpu_isMatrixOp hsch M

example := C38_lti_recurN (α := ℤ) C38_alternating_case 2

/-- **C38, `recurN` and `recur2`.** -/
theorem C38_recurN {sch : Scheduler (Regs α) α} (hsch : IsScheduler sch) (M : Nat) : IsVaryingOp M (recurNCpu sch) :=
  recurNCpu_isVaryingOp hsch M

example := C38_recurN (α := ℤ) C38_alternating_case 2

/-- Written out for `recurN` with one coefficient sequence per batch item. -/
theorem C38_recurN_batched {sch : Scheduler (Regs α) α} (hsch : IsScheduler sch) (B N M : Nat)
    (A : Nat → Nat → Nat → Nat → α) (zi : Nat → Nat → α) (x : Nat → Nat → Nat → α) :
    ∃ y, recurNCpu sch (t4 B N M M A) (t2 B M zi) (t3 B N M x) = .ok (t3 B N M y) ∧ ∀ b < B, ∀ i < M,
      (∀ _ : 0 < N, y b 0 i = ∑ k ∈ Finset.range M, A b 0 i k * zi b k + x b 0 i) ∧
      ∀ n, n + 1 < N → y b (n + 1) i = ∑ k ∈ Finset.range M, A b (n + 1) i k * y b n k + x b (n + 1) i :=
  ⟨_, recurNCpu_isVaryingOp hsch M B N _ _ zi x (.batched A), fun _ _ _ _ => ⟨fun _ => rfl, fun _ _ => rfl⟩⟩

example := C38_recurN_batched C38_alternating_case 3 7 2 (fun i t k j => (i : ℤ) - t * k - j) (fun i t => (i : ℤ) * t)
  (fun i t k => (i : ℤ) - t * k)

/-- A batch of two Gaussian-integer signals with two-dimensional state. -/
def case38 (sch : Scheduler (Regs GaussianInt) GaussianInt) : Res (Tensor GaussianInt) :=
  ltiRecurNCpu sch (t2 2 2 fun i k => ⟨i + 1, k⟩) (t2 2 2 fun b i => ⟨b, i + 1⟩) (t3 2 3 2 fun b n i => ⟨b + n, i⟩)

example : at? (case38 sequential) [1, 2, 1] = at? (case38 alternating) [1, 2, 1] ∧
    at? (case38 sequential) [1, 2, 1] = some ⟨-25, 89⟩ := by decide +kernel

end Props
