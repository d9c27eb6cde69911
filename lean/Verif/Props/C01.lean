import Verif.Proof.LtiRecur
import Mathlib.Algebra.Star.Rat

/-!
# C01: `lti.linear_recurrence` is the plain recurrence
-/

namespace Props
open Torch Torch.Tensor Spec Phil
variable {α : Type} [CommRing α] [StarRing α]

/-- **C01.** For every layout of the coefficient and of the initial state (0-D, length one, per batch item), every
length and every unroll factor, the blocked algorithm returns `h[b,t] = a[b] * h[b,t-1] + x[b,t]`, `h[b,-1] = init[b]`. -/
theorem C01_linear_recurrence {B N : Nat} {a init : Tensor α} {av iv : Nat → α} (x : Nat → Nat → α) (u : Int)
    (ha : BatchVals B a av) (hi : BatchVals B init iv) (hN : 0 < N) (hu : 1 ≤ u) :
    Lti.linearRecurrence a init (t2 B N x) u =
      .ok (t2 B N fun b t => scalarRec (fun _ => av b) (iv b) (x b) (t + 1)) := by
  lift u to ℕ using by omega
  have hu' : 0 < u := by omega
  unfold Lti.linearRecurrence
  rw [size_t2_1]
  cases ha <;> cases hi <;>
    (try simp only [Lti.linearRecurrenceAux_t0, Lti.linearRecurrenceAux_init_t0]) <;>
    rw [Lti.linearRecurrenceAux_eq u hu' (N + 1) _ _ x (by simp) (by simp) hN (by omega)] <;>
    refine congrArg Except.ok (t2_congr rfl rfl fun b t hb ht => ?_) <;>
    simp only [Lti.bv_one, Lti.bv_self _ hb]

/-- The result does not depend on the unroll factor. -/
theorem C01_unroll_factor_irrelevant {B N : Nat} {a init : Tensor α} {av iv : Nat → α} (x : Nat → Nat → α) (u u' : Int)
    (ha : BatchVals B a av) (hi : BatchVals B init iv) (hN : 0 < N) (hu : 1 ≤ u) (hu' : 1 ≤ u') :
    Lti.linearRecurrence a init (t2 B N x) u = Lti.linearRecurrence a init (t2 B N x) u' := by
  rw [C01_linear_recurrence x u ha hi hN hu, C01_linear_recurrence x u' ha hi hN hu']

example := C01_unroll_factor_irrelevant (B := 2) (N := 5) (fun b t => (b : ℤ) + t) 2 7 (BatchVals.full fun b => (b : ℤ) + 2)
  (BatchVals.scalar 3) (by decide) (by decide) (by decide)

/-- The defining equations of the output, without reference to `scalarRec`: first sample and successive samples. -/
theorem C01_equations {B N : Nat} {a init : Tensor α} {av iv : Nat → α} (x : Nat → Nat → α) (u : Int)
    (ha : BatchVals B a av) (hi : BatchVals B init iv) (hN : 0 < N) (hu : 1 ≤ u) :
    ∃ y : Nat → Nat → α, Lti.linearRecurrence a init (t2 B N x) u = .ok (t2 B N y) ∧
      ∀ b, y b 0 = av b * iv b + x b 0 ∧ ∀ t, y b (t + 1) = av b * y b t + x b (t + 1) :=
  ⟨_, C01_linear_recurrence x u ha hi hN hu, fun _ => ⟨rfl, fun _ => rfl⟩⟩

example := C01_equations (B := 2) (N := 5) (fun b t => (b : ℤ) + t) 2 (BatchVals.full fun b => (b : ℤ) + 2) (BatchVals.scalar 3)
  (by decide) (by decide)

/-- An unroll factor below one is rejected, whatever the other arguments are. -/
theorem C01_rejects_unroll_factor (a init x : Tensor α) (u : Int) (hu : u < 1) :
    Fails (Lti.linearRecurrence a init x u) := by
  unfold Lti.linearRecurrence
  rw [Lti.linearRecurrenceAux]
  exact fails_check fun _ => fails_check fun _ => fails_check fun _ => fails_bind fun _ _ =>
    fails_check fun _ => fails_check fun _ => fails_bind fun _ _ => fails_check fun h => absurd hu h

example := C01_rejects_unroll_factor (t1 2 fun b => (b : ℤ) + 2) (t0 3) (t2 2 5 fun b t => (b : ℤ) + t) 0 (by decide)

/-- Ill-shaped arguments are rejected: `x` not a matrix, `a` or `init` with two or more axes, or with a batch size
other than one that differs from that of `x`. -/
theorem C01_rejects_shapes (a init x : Tensor α) (u : Int)
    (h : x.rank ≠ 2 ∨ 2 ≤ a.rank ∨ 2 ≤ init.rank ∨ (a.rank = 1 ∧ 1 < a.size 0 ∧ a.size 0 ≠ x.size 0) ∨
      (init.rank = 1 ∧ 1 < init.size 0 ∧ init.size 0 ≠ x.size 0)) :
    Fails (Lti.linearRecurrence a init x u) := by
  unfold Lti.linearRecurrence
  rw [Lti.linearRecurrenceAux]
  refine fails_check fun h1 => fails_check fun h2 => fails_check fun h3 => fails_bind fun _ _ =>
    fails_check fun h4 => fails_check fun h5 => ?_
  exfalso
  omega

/-- Three coefficients for two signals. -/
example := C01_rejects_shapes (t1 3 fun b => (b : ℤ) + 2) (t0 3) (t2 2 5 fun b t => (b : ℤ) + t) 2 (by simp)

/-- An empty signal is rejected. -/
theorem C01_rejects_empty {B : Nat} (a init : Tensor α) (x : Nat → Nat → α) (u : Int) :
    Fails (Lti.linearRecurrence a init (t2 B 0 x) u) := by
  unfold Lti.linearRecurrence
  rw [Lti.linearRecurrenceAux]
  refine fails_check fun _ => fails_check fun _ => fails_check fun _ => fails_bind fun _ _ =>
    fails_check fun _ => fails_check fun _ => fails_bind fun _ _ => fails_check fun _ => ?_
  rw [if_pos (by simp)]
  unfold Lti.scalarRecursionLoop
  rw [unbind_t2_1]
  exact ⟨_, rfl⟩

/-- Non-vacuity: per-batch coefficients, 0-D initial state, five samples in blocks of two. -/
example : Lti.linearRecurrence (t1 2 fun b => (b : ℤ) + 2) (t0 3) (t2 2 5 fun b t => (b : ℤ) + t) 2 =
    .ok (t2 2 5 fun b t => scalarRec (fun _ => (b : ℤ) + 2) 3 (fun t => (b : ℤ) + t) (t + 1)) :=
  C01_linear_recurrence _ 2 (BatchVals.full _) (BatchVals.scalar _) (by omega) (by omega)

example : at? (Lti.linearRecurrence (t1 2 fun b => (b : ℤ) + 2) (t0 3) (t2 2 5 fun b t => (b : ℤ) + t) 2) [1, 4] =
    some 908 := by
  rw [C01_linear_recurrence _ 2 (BatchVals.full _) (BatchVals.scalar _) (by omega) (by omega)]
  decide

end Props
