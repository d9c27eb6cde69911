import Verif.Proof.LtiFiltfilt
import Verif.Spec.Transfer

/-! # Forward-backward filtering away from the ends -/

namespace Spec
open Finset
variable {α : Type} [CommRing α]

theorem denom_sum (P : Nat) (a y : Nat → α) (n : Nat) :
    ∑ k ∈ range (P + 1), denom P a k * y (n - k) = y n + ∑ k ∈ range P, a k * y (n - 1 - k) := by
  rw [sum_range_succ', add_comm]
  refine congrArg₂ (· + ·) (by rw [denom, if_pos rfl, one_mul]; rfl) (sum_congr rfl fun k hk => ?_)
  rw [denom, if_neg (by omega), Nat.add_sub_cancel, if_pos (mem_range.1 hk), show n - (k + 1) = n - 1 - k by omega]

/-- Transposed direct form II: once the initial state has left the delay line, the difference equation holds. -/
theorem tdf2_interior {K P M : Nat} (hM : 0 < M) (hKM : K ≤ M + 1) (hPM : P ≤ M) (b a z x : Nat → α) {n : Nat} (hn : M ≤ n) :
    ∑ k ∈ range (P + 1), denom P a k * tdf2Out M (zext K b) (zext P a) z x (n - k) = ∑ j ∈ range K, b j * x (n - j) := by
  rw [denom_sum]
  have h := chain_state (fun t i hi => tdf2_step (zext K b) (zext P a) z x t hi) n hM
  simp only [zero_add] at h
  rw [if_neg (by omega), add_zero, sum_window] at h
  have h1 : tdf2Out M (zext K b) (zext P a) z x n = zext K b 0 * x n +
      ∑ m ∈ range M, (zext K b (m + 1) * x (n - 1 - m) - zext P a m * tdf2Out M (zext K b) (zext P a) z x (n - 1 - m)) := by
    rw [tdf2Out, h, add_comm]
    refine congrArg _ (sum_congr rfl fun m hm => ?_)
    rw [if_pos (by have := mem_range.1 hm; omega)]
  have h2 : ∀ f : Nat → α, ∑ m ∈ range M, zext P a m * f m = ∑ k ∈ range P, a k * f k := by
    intro f
    refine (sum_subset (range_mono hPM) fun m _ hm => ?_).symm.trans (sum_congr rfl fun m hm => ?_)
    · rw [zext, if_neg fun h => hm (mem_range.2 h), zero_mul]
    · rw [zext, if_pos (mem_range.1 hm)]
  have h3 : zext K b 0 * x n + ∑ m ∈ range M, zext K b (m + 1) * x (n - 1 - m) = ∑ j ∈ range K, b j * x (n - j) := by
    have : ∑ j ∈ range (M + 1), zext K b j * x (n - j) = ∑ j ∈ range K, b j * x (n - j) := by
      refine (sum_subset (range_mono hKM) fun m _ hm => ?_).symm.trans (sum_congr rfl fun m hm => ?_)
      · rw [zext, if_neg fun h => hm (mem_range.2 h), zero_mul]
      · rw [zext, if_pos (mem_range.1 hm)]
    rw [← this, sum_range_succ', add_comm]
    refine congrArg₂ (· + ·) (sum_congr rfl fun m _ => ?_) rfl
    rw [show n - 1 - m = n - (m + 1) by omega]
  rw [h1, sum_sub_distrib, h2, ← h3]
  ring

/-- Direct form II likewise. -/
theorem df2_interior {K P M : Nat} (hP : 0 < P) (hKM : K ≤ M + 1) (hPM : P ≤ M) (b a z x : Nat → α) {n : Nat} (hn : M ≤ n) :
    ∑ k ∈ range (P + 1), denom P a k * taps K b (dfSignal P (zext P a) z x) ((n - k : Nat) : Int) = ∑ j ∈ range K, b j * x (n - j) := by
  rw [denom_sum P a (fun m => taps K b (dfSignal P (zext P a) z x) (m : Int))]
  unfold taps
  rw [show (∑ k ∈ range P, a k * ∑ j ∈ range K, b j * dfSignal P (zext P a) z x (((n - 1 - k : Nat) : Int) - j)) =
      ∑ j ∈ range K, b j * ∑ k ∈ range P, a k * dfSignal P (zext P a) z x (((n - 1 - k : Nat) : Int) - j) by
    simp only [mul_sum]
    rw [sum_comm]
    exact sum_congr rfl fun j _ => sum_congr rfl fun k _ => by ring]
  rw [← sum_add_distrib]
  refine sum_congr rfl fun j hj => ?_
  have hj := mem_range.1 hj
  rw [← mul_add, show (n : Int) - j = ((n - j : Nat) : Int) by omega, df_signal hP]
  congr 1
  have : ∑ k ∈ range P, zext P a k * dfSignal P (zext P a) z x (((n - j : Nat) : Int) - 1 - k) =
      ∑ k ∈ range P, a k * dfSignal P (zext P a) z x (((n - 1 - k : Nat) : Int) - j) := by
    refine sum_congr rfl fun k hk => ?_
    have hk := mem_range.1 hk
    rw [zext, if_pos hk]
    congr 2
    omega
  rw [this]
  ring

/-- A pass that satisfies the difference equation away from the start, run forwards and then backwards. -/
theorem zero_phase {P K M L : Nat} {A b : Nat → α} {x y v : Nat → α} (hP : P ≤ M) (hK : K ≤ M + 1)
    (hy : ∀ n, M ≤ n → ∑ k ∈ range (P + 1), A k * y (n - k) = ∑ j ∈ range K, b j * x (n - j))
    (hv : ∀ n, M ≤ n → ∑ k ∈ range (P + 1), A k * v (n - k) = ∑ j ∈ range K, b j * y (L - 1 - (n - j))) {n : Nat} (hn : M ≤ n)
    (hn' : n + M < L) :
    ∑ k ∈ range (P + 1), ∑ l ∈ range (P + 1), A k * A l * v (L - 1 - (n + k - l)) =
      ∑ k ∈ range K, ∑ l ∈ range K, b k * b l * x (n + k - l) := by
  rw [sum_comm]
  have h1 : ∀ l ∈ range (P + 1), ∑ k ∈ range (P + 1), A k * A l * v (L - 1 - (n + k - l)) =
      ∑ j ∈ range K, b j * (A l * y (n + j - l)) := by
    intro l hl
    have hl := mem_range.1 hl
    have e := hv (L - 1 - (n - l)) (by omega)
    rw [show (∑ k ∈ range (P + 1), A k * A l * v (L - 1 - (n + k - l))) =
        A l * ∑ k ∈ range (P + 1), A k * v (L - 1 - (n - l) - k) by
      rw [mul_sum]
      refine sum_congr rfl fun k hk => ?_
      have hk := mem_range.1 hk
      rw [show L - 1 - (n + k - l) = L - 1 - (n - l) - k by omega]; ring]
    rw [e, mul_sum]
    refine sum_congr rfl fun j hj => ?_
    have hj := mem_range.1 hj
    rw [show L - 1 - (L - 1 - (n - l) - j) = n + j - l by omega]; ring
  rw [sum_congr rfl h1, sum_comm]
  refine sum_congr rfl fun j hj => ?_
  rw [← mul_sum, hy (n + j) (by omega), mul_sum]
  exact sum_congr rfl fun i _ => by ring

end Spec
