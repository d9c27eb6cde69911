import Verif.Proof.LpvRecur
import Mathlib.Algebra.Star.Rat

/-!
# C02: `lpv.linear_recurrence` is the plain time-varying recurrence
-/

namespace Props
open Torch Torch.Tensor Spec Phil
variable {α : Type} [CommRing α] [StarRing α]

/-- A coefficient tensor of shape `(N,)`, `(1, N)` or `(B, N)` seen as a coefficient per batch item and time. -/
inductive TimeVals (B N : Nat) : Tensor α → (Nat → Nat → α) → Prop
  | shared (g : Nat → α) : TimeVals B N (t1 N g) fun _ => g
  | single (g : Nat → Nat → α) : TimeVals B N (t2 1 N g) fun _ => g 0
  | full (g : Nat → Nat → α) : TimeVals B N (t2 B N g) g

/-- **C02.** For every layout of the coefficients (shared over the batch or not) and of the initial state, every length
and every unroll factor, the blocked algorithm returns `h[b,t] = a[b,t] * h[b,t-1] + x[b,t]`, `h[b,-1] = init[b]`. -/
theorem C02_linear_recurrence {B N : Nat} {a init : Tensor α} {av : Nat → Nat → α} {iv : Nat → α}
    (x : Nat → Nat → α) (u : Int) (ha : TimeVals B N a av) (hi : BatchVals B init iv) (hN : 0 < N) (hu : 1 ≤ u) :
    Lpv.linearRecurrence a init (t2 B N x) u =
      .ok (t2 B N fun b t => scalarRec (av b) (iv b) (x b) (t + 1)) := by
  lift u to ℕ using by omega
  have hu' : 0 < u := by omega
  unfold Lpv.linearRecurrence
  rw [size_t2_1]
  cases ha with
  | shared g =>
    cases hi <;>
    (try simp only [Lpv.linearRecurrenceAux_init_t0]) <;>
    rw [Lpv.linearRecurrenceAux_eq1 u hu' (N + 1) _ _ x (by simp) hN (by omega)] <;>
    refine congrArg Except.ok (t2_congr rfl rfl fun b t hb ht => ?_) <;>
    simp only [Lti.bv_one, Lti.bv_self _ hb]
  | single g =>
    cases hi <;>
    (try simp only [Lpv.linearRecurrenceAux_init_t0]) <;>
    rw [Lpv.linearRecurrenceAux_eq2 u hu' (N + 1) _ _ x (by simp) (by simp) hN (by omega)] <;>
    refine congrArg Except.ok (t2_congr rfl rfl fun b t hb ht => ?_) <;>
    simp only [Lti.bv_one, Lti.bv_self _ hb]
  | full g =>
    cases hi <;>
    (try simp only [Lpv.linearRecurrenceAux_init_t0]) <;>
    rw [Lpv.linearRecurrenceAux_eq2 u hu' (N + 1) _ _ x (by simp) (by simp) hN (by omega)] <;>
    refine congrArg Except.ok (t2_congr rfl rfl fun b t hb ht => ?_) <;>
    simp only [Lti.bv_one, Lti.bv_self _ hb]

/-- The result does not depend on the unroll factor. -/
theorem C02_unroll_factor_irrelevant {B N : Nat} {a init : Tensor α} {av : Nat → Nat → α} {iv : Nat → α}
    (x : Nat → Nat → α) (u u' : Int) (ha : TimeVals B N a av) (hi : BatchVals B init iv) (hN : 0 < N)
    (hu : 1 ≤ u) (hu' : 1 ≤ u') :
    Lpv.linearRecurrence a init (t2 B N x) u = Lpv.linearRecurrence a init (t2 B N x) u' := by
  rw [C02_linear_recurrence x u ha hi hN hu, C02_linear_recurrence x u' ha hi hN hu']

example := C02_unroll_factor_irrelevant (B := 2) (N := 5) (fun b t => (b : ℤ) + t) 2 7 (TimeVals.full fun b t => (b : ℤ) - t)
  (BatchVals.scalar 3) (by decide) (by decide) (by decide)

/-- The defining equations of the output, without reference to `scalarRec`. -/
theorem C02_equations {B N : Nat} {a init : Tensor α} {av : Nat → Nat → α} {iv : Nat → α}
    (x : Nat → Nat → α) (u : Int) (ha : TimeVals B N a av) (hi : BatchVals B init iv) (hN : 0 < N) (hu : 1 ≤ u) :
    ∃ y : Nat → Nat → α, Lpv.linearRecurrence a init (t2 B N x) u = .ok (t2 B N y) ∧
      ∀ b, y b 0 = av b 0 * iv b + x b 0 ∧ ∀ t, y b (t + 1) = av b (t + 1) * y b t + x b (t + 1) :=
  ⟨_, C02_linear_recurrence x u ha hi hN hu, fun _ => ⟨rfl, fun _ => rfl⟩⟩

example := C02_equations (B := 2) (N := 5) (fun b t => (b : ℤ) + t) 2 (TimeVals.full fun b t => (b : ℤ) - t) (BatchVals.scalar 3)
  (by decide) (by decide)

/-- An unroll factor below one is rejected, whatever the other arguments are. -/
theorem C02_rejects_unroll_factor (a init x : Tensor α) (u : Int) (hu : u < 1) :
    Fails (Lpv.linearRecurrence a init x u) := by
  unfold Lpv.linearRecurrence
  rw [Lpv.linearRecurrenceAux]
  exact fails_check fun _ => fails_check fun _ => fails_check fun _ => fails_check fun _ => fails_check fun _ =>
    fails_bind fun _ _ => fails_check fun h => absurd hu h

example := C02_rejects_unroll_factor (t1 5 fun t => (t : ℤ) + 2) (t0 3) (t2 2 5 fun b t => (b : ℤ) + t) 0 (by decide)

/-- A shared coefficient sequence of the wrong length, and ill-shaped arguments, are rejected. -/
theorem C02_rejects_shapes (a init x : Tensor α) (u : Int)
    (h : x.rank ≠ 2 ∨ a.rank = 0 ∨ 3 ≤ a.rank ∨ 2 ≤ init.rank ∨ (a.rank = 1 ∧ a.size 0 ≠ x.size 1) ∨
      (init.rank = 1 ∧ 1 < init.size 0 ∧ init.size 0 ≠ x.size 0)) :
    Fails (Lpv.linearRecurrence a init x u) := by
  unfold Lpv.linearRecurrence
  rw [Lpv.linearRecurrenceAux]
  refine fails_check fun h1 => fails_check fun h2 => fails_check fun h3 => fails_check fun h4 =>
    fails_check fun h5 => ?_
  exfalso
  omega

/-- Four coefficients for five samples. -/
example := C02_rejects_shapes (t1 4 fun t => (t : ℤ) + 2) (t0 3) (t2 2 5 fun b t => (b : ℤ) + t) 2 (by simp)

/-- The code does not check the length of a 2-D coefficient tensor: with two coefficients and three samples, the
unblocked loop silently returns a two-sample signal instead of raising. -/
theorem C02_unchecked_length :
    shape? (Lpv.linearRecurrence (t2 1 2 fun _ _ => (1 : ℤ)) (t0 0) (t2 1 3 fun _ _ => 1) 1) = some [1, 2] := by
  rfl

/-- Non-vacuity: batched coefficients, length-one initial state, seven samples in blocks of three. -/
example : Lpv.linearRecurrence (t2 2 7 fun b t => (b : ℤ) + t) (t1 1 fun _ => 3) (t2 2 7 fun b t => (b : ℤ) - t) 3 =
    .ok (t2 2 7 fun b t => scalarRec (fun t => (b : ℤ) + t) 3 (fun t => (b : ℤ) - t) (t + 1)) :=
  C02_linear_recurrence _ 3 (TimeVals.full _) (BatchVals.single _) (by omega) (by omega)

example : at? (Lpv.linearRecurrence (t2 2 7 fun b t => (b : ℤ) + t) (t1 1 fun _ => 3) (t2 2 7 fun b t => (b : ℤ) - t) 3)
    [1, 6] = some 18741 := by
  rw [C02_linear_recurrence _ 3 (TimeVals.full _) (BatchVals.single _) (by omega) (by omega)]
  decide

end Props
