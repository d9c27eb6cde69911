import Verif.Spec.Transfer
import Verif.Proof.LtiFiltering
import Mathlib.RingTheory.PowerSeries.Basic
import Mathlib.RingTheory.PowerSeries.Inverse

/-! # Transfer functions: tools

A sequence is the power series of its coefficients. -/

namespace Spec
open Finset
variable {α : Type} [CommRing α]

theorem mk_conv (f g : Nat → α) : PowerSeries.mk (conv f g) = PowerSeries.mk f * PowerSeries.mk g := by
  ext n
  rw [PowerSeries.coeff_mk, PowerSeries.coeff_mul, Nat.sum_antidiagonal_eq_sum_range_succ_mk]
  simp only [PowerSeries.coeff_mk]
  rfl

theorem mk_inj {f g : Nat → α} (h : PowerSeries.mk f = PowerSeries.mk g) : f = g := by
  funext n
  have := congrArg (PowerSeries.coeff n) h
  rwa [PowerSeries.coeff_mk, PowerSeries.coeff_mk] at this

theorem denom_isUnit (P : Nat) (a : Nat → α) : IsUnit (PowerSeries.mk (denom P a)) := by
  rw [PowerSeries.isUnit_iff_constantCoeff]
  have : PowerSeries.constantCoeff (PowerSeries.mk (denom P a)) = 1 := by
    rw [← PowerSeries.coeff_zero_eq_constantCoeff_apply, PowerSeries.coeff_mk]; rfl
  rw [this]; exact isUnit_one

theorem mk_impulse : PowerSeries.mk (impulse : Nat → α) = 1 := by
  ext n
  rw [PowerSeries.coeff_mk, PowerSeries.coeff_one, impulse]

/-- Taps applied to a signal that is zero before time 0 are a convolution. -/
theorem taps_conv (K : Nat) (b : Nat → α) {y : Int → α} (h0 : ∀ n, n < 0 → y n = 0) (n : Nat) :
    taps K b y n = conv (zext K b) (fun t => y t) n := by
  unfold taps conv
  have h1 : ∑ j ∈ range K, b j * y ((n : Int) - j) = ∑ j ∈ range (max K (n + 1)), zext K b j * y ((n : Int) - j) := by
    refine (sum_congr rfl fun j hj => ?_).trans (sum_subset (range_mono (le_max_left K (n + 1))) fun j _ hj => ?_)
    · rw [zext, if_pos (mem_range.1 hj)]
    · rw [zext, if_neg fun h => hj (mem_range.2 h), zero_mul]
  rw [h1]
  refine ((sum_subset (range_mono (le_max_right K (n + 1))) fun j _ hj => ?_).symm).trans (sum_congr rfl fun j hj => ?_)
  · have : ¬ j < n + 1 := fun h => hj (mem_range.2 h)
    rw [h0 _ (by omega), mul_zero]
  · have := mem_range.1 hj
    exact congrArg (zext K b j * y ·) (by omega)

theorem taps_causal (K : Nat) (b x : Nat → α) (n : Nat) : taps K b (causal x) n = conv (zext K b) x n := by
  rw [taps_conv K b (y := causal x) (fun n hn => if_pos hn)]
  refine sum_congr rfl fun k _ => ?_
  beta_reduce
  rw [causal, if_neg (by omega), Int.toNat_natCast]

theorem denom_conv (P : Nat) (a : Nat → α) {y : Int → α} (h0 : ∀ n, n < 0 → y n = 0) (n : Nat) :
    conv (denom P a) (fun t => y t) n = y n + taps P a y ((n : Int) - 1) := by
  unfold conv
  rw [sum_range_succ', add_comm]
  refine congrArg₂ (· + ·) ?_ ?_
  · rw [denom, if_pos rfl, one_mul]; rfl
  · cases n with
    | zero =>
      rw [range_zero, sum_empty]
      exact (sum_eq_zero fun j _ => by rw [h0 _ (by omega), mul_zero]).symm
    | succ n =>
      rw [show ((n + 1 : Nat) : Int) - 1 = n by omega, taps_conv P a h0]
      refine sum_congr rfl fun k hk => ?_
      rw [denom, if_neg (by omega), Nat.add_sub_cancel, zext]
      exact congrArg (_ * y ·) (by omega)

/-- The difference equation says `a * y = b * x`. -/
theorem diffEq_conv {K P : Nat} {b a x : Nat → α} {y : Int → α} (h0 : ∀ n, n < 0 → y n = 0)
    (h : ∀ n, y n = taps K b (causal x) n - taps P a y (n - 1)) :
    PowerSeries.mk (denom P a) * PowerSeries.mk (fun t => y t) = PowerSeries.mk (zext K b) * PowerSeries.mk x := by
  rw [← mk_conv, ← mk_conv]
  congr 1
  funext n
  rw [denom_conv P a h0, ← taps_causal]
  exact eq_sub_iff_add_eq.1 (h n)

end Spec
