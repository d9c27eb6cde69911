import Verif.Proof.LtiComb
import Verif.Torch.Fails

/-!
# C19: the comb filter

Full claim: for every delay of at least one, every length, with and without the compiled extension, `comb_filter` returns
`y[n] = x[n] - a * y[n - delay]` with `y[-1-i] = zi[i]`, and the final state lists the last `delay` outputs, most recent first.

What the code does not deliver (each proved below): without the extension every delay other than one raises; with delay one
no final state is returned; a signal shorter than the delay returns a truncated final state; a coefficient of shape `(1,)`,
which the documentation allows, is rejected for more than one batch item.
-/

namespace Props
open Torch Torch.Tensor Spec Phil Phil.Lti
variable {α : Type} [CommRing α] [StarRing α]

/-- **C19 (partial), initial state given.**  Missing: no extension, delay one, signals shorter than the delay. -/
theorem C19_with_state_partial {B N D : Nat} {a zi : Tensor α} {av : Nat → α} {z : Nat → Nat → α} (x : Nat → Nat → α) {u : Int}
    (ha : PerItem B a av) (hz : Past B D (some zi) z) (hD : 2 ≤ D) (hN : D ≤ N) (hu : 1 ≤ u) :
    ∃ y : Nat → Int → α,
      (∀ i m, y i (-1 - (m : Nat)) = z i m) ∧ (∀ i (n : Nat), y i n = x i n - av i * y i (n - D)) ∧
      combFilter true a D (t2 B N x) (some zi) u =
        .ok (t2 B N fun i n => y i n, some (t2 B D fun i m => y i ((N : Int) - 1 - m))) := by
  refine ⟨fun i => combSig D (av i) (z i) (x i), fun i m => combSig_past _ _ _ _ _, fun i n => combSig_rec (by omega) _ _ _ _, ?_⟩
  rw [combFilter_eq x ha hz hD (by omega) hu, min_eq_left hN]
  rfl

/-- **C19 (partial), no initial state**: the signal before time zero is silence.  Missing: no extension. -/
theorem C19_without_state_partial {B N D : Nat} {a : Tensor α} {av : Nat → α} (x : Nat → Nat → α) {u : Int}
    (ha : PerItem B a av) (hD : 1 ≤ D) (hN : 0 < N) (hu : 1 ≤ u) :
    ∃ y : Nat → Int → α,
      (∀ i m, y i (-1 - (m : Nat)) = 0) ∧ (∀ i (n : Nat), y i n = x i n - av i * y i (n - D)) ∧
      combFilter true a D (t2 B N x) none u = .ok (t2 B N fun i n => y i n, none) := by
  refine ⟨fun i => combSig D (av i) (fun _ => 0) (x i), fun i m => combSig_past _ _ _ _ _,
    fun i n => combSig_rec (by omega) _ _ _ _, ?_⟩
  rcases Nat.lt_or_ge 1 D with h | h
  · exact combFilter_eq x ha .none h hN hu
  · obtain rfl : D = 1 := by omega
    exact combFilter_one true x ha .none hN hu

example := C19_without_state_partial (B := 2) (N := 7) (D := 3) (u := 2) (fun i t => (i : ℤ) + t) (.full fun i => (i : ℤ) + 1) (by decide) (by decide)
  (by decide)

/-- **C19 (partial), delay one**: with or without the extension the output is right, but there is no final state. -/
theorem C19_delay_one_partial {B N : Nat} {a zi : Tensor α} {av : Nat → α} {z : Nat → Nat → α} (ext : Bool)
    (x : Nat → Nat → α) {u : Int} (ha : PerItem B a av) (hz : Past B 1 (some zi) z) (hN : 0 < N) (hu : 1 ≤ u) :
    ∃ y : Nat → Int → α,
      (∀ i m, y i (-1 - (m : Nat)) = z i m) ∧ (∀ i (n : Nat), y i n = x i n - av i * y i (n - 1)) ∧
      combFilter ext a 1 (t2 B N x) (some zi) u = .ok (t2 B N fun i n => y i n, none) :=
  ⟨fun i => combSig 1 (av i) (z i) (x i), fun i m => combSig_past _ _ _ _ _, fun i n => combSig_rec (by omega) _ _ _ _,
    combFilter_one ext x ha hz hN hu⟩

example := C19_delay_one_partial (B := 2) (N := 7) (u := 2) false (fun i t => (i : ℤ) + t) (.full fun i => (i : ℤ) + 1)
  (.batched fun i _ => (i : ℤ) + 3) (by decide) (by decide)

/-- A signal shorter than the delay: the output is right but the final state has only `N` of the `D` columns, so that it
cannot be used as the initial state of a further call. -/
theorem C19_short_signal {B N D : Nat} {a zi : Tensor α} {av : Nat → α} {z : Nat → Nat → α} (x : Nat → Nat → α) {u : Int}
    (ha : PerItem B a av) (hz : Past B D (some zi) z) (hD : 2 ≤ D) (hN : 0 < N) (hND : N < D) (hu : 1 ≤ u) :
    ∃ y zf, combFilter true a D (t2 B N x) (some zi) u = .ok (y, some zf) ∧ zf.shape = [B, N] := by
  refine ⟨_, _, combFilter_eq x ha hz hD hN hu, ?_⟩
  simp only [shape_t2]; rw [min_eq_right (by omega)]

/-- Two samples, delay three: the returned state has two samples. -/
example := C19_short_signal (B := 2) (N := 2) (D := 3) (u := 2) (fun i t => (i : ℤ) + t) (.full fun i => (i : ℤ) + 1)
  (.batched fun i m => (i : ℤ) + m) (by decide) (by decide) (by decide) (by decide)

/-- Without the extension every delay other than one raises, whatever the arguments. -/
theorem C19_no_extension (a x : Tensor α) (zi : Option (Tensor α)) (D u : Int) (hD : D ≠ 1) :
    Fails (combFilter false a D x zi u) := by
  unfold combFilter
  refine fails_check fun _ => fails_check fun _ => fails_check fun _ => fails_check fun _ => ?_
  rw [if_neg hD]
  refine fails_check fun _ => ?_
  refine fails_bind fun x _ => fails_bind fun f _ => fails_bind fun f _ => fails_bind fun a _ => fails_bind fun i _ =>
    fails_bind fun f _ => ?_
  exact fails_left ⟨_, rfl⟩

example := C19_no_extension (t0 (2 : ℤ)) (t2 2 7 fun i t => (i : ℤ) + t) none 3 2 (by decide)

/-- A delay of zero passes the check `delay >= 0` and then divides by zero. -/
theorem C19_delay_zero (ext : Bool) (a x : Tensor α) (zi : Option (Tensor α)) (u : Int) :
    Fails (combFilter ext a 0 x zi u) := by
  unfold combFilter
  refine fails_check fun _ => fails_check fun _ => fails_check fun _ => fails_check fun _ => ?_
  rw [if_neg (by decide)]
  exact fails_check fun h => absurd rfl h

/-- A coefficient of shape `(1,)` is rejected for more than one batch item although it is documented. -/
theorem C19_single_coefficient (ext : Bool) (B N : Nat) (D u : Int) (a : Nat → α) (x : Nat → Nat → α)
    (zi : Option (Tensor α)) (hB : B ≠ 1) : Fails (combFilter ext (t1 1 a) D (t2 B N x) zi u) := by
  unfold combFilter
  refine fails_check fun _ => fails_check fun _ => fails_check fun _ => fails_check fun h => ?_
  have := h (by simp)
  simp at this; omega

example := C19_single_coefficient true 2 7 3 2 (fun _ => (5 : ℤ)) (fun i t => (i : ℤ) + t) none (by decide)

/-- Non-vacuity: delay 3, seven samples (not a multiple of the delay), one state per batch item, unroll factor 2. -/
example : combFilter true (t1 2 fun i => (i : ℤ) + 1) 3 (t2 2 7 fun i t => (i : ℤ) + t) (some (t2 2 3 fun _ m => (m : ℤ) + 1)) 2 =
    .ok (t2 2 7 fun i n => combSig 3 ((i : ℤ) + 1) (fun m => (m : ℤ) + 1) (fun t => (i : ℤ) + t) n,
      some (t2 2 3 fun i m => combSig 3 ((i : ℤ) + 1) (fun m => (m : ℤ) + 1) (fun t => (i : ℤ) + t) ((7 : Nat) - 1 - m))) :=
  combFilter_eq (D := 3) _ (.full fun i : Nat => (i : ℤ) + 1) (.batched fun _ m : Nat => (m : ℤ) + 1) (by decide) (by decide) (by decide)

example : ∃ y : Nat → Int → ℤ,
      (∀ i m, y i (-1 - (m : Nat)) = (m : ℤ) + 1) ∧ (∀ i (n : Nat), y i n = (n : ℤ) - 2 * y i (n - (3 : Nat))) ∧
      combFilter true (t0 2) (3 : Nat) (t2 2 7 fun _ t => (t : ℤ)) (some (t1 3 fun m => (m : ℤ) + 1)) 2 =
        .ok (t2 2 7 fun i n => y i n, some (t2 2 3 fun i m => y i ((7 : Nat) - 1 - m))) :=
  C19_with_state_partial _ (.scalar 2) (.shared _) (by decide) (by decide) (by decide)

end Props
