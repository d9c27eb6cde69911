import Verif.Proof.Filter
import Verif.Spec.Lpc

/-! # Time-varying filters (no tensors) -/

namespace Spec
open Finset
variable {α : Type} [CommRing α]

/-- Full convolution of `T` samples with the taps in force when a sample entered. -/
def tvConv (T M : Nat) (b : Nat → Nat → α) (x : Nat → α) (n : Nat) : α :=
  ∑ j ∈ range (M + 1), if j ≤ n ∧ n - j < T then b (n - j) j * x (n - j) else 0

/-- The delay line of a transposed FIR filter with time-varying taps. -/
def tvDelay (M : Nat) (b : Nat → Nat → α) (z x : Nat → α) : Nat → Nat → α
  | 0, m => z m
  | n + 1, m => b n (m + 1) * x n + if m + 1 < M then tvDelay M b z x n (m + 1) else 0

theorem tvDelay_eq {M : Nat} (b : Nat → Nat → α) (z x : Nat → α) (t : Nat) {i : Nat} (hi : i < M) :
    tvDelay M b z x t i = ∑ m ∈ range t, (if i + m < M then b (t - 1 - m) (i + m + 1) * x (t - 1 - m) else 0) +
      if i + t < M then z (i + t) else 0 :=
  chain_state (z := tvDelay M b z x) (c := fun t i => b t (i + 1) * x t) (fun _ _ _ => rfl) t hi

/-- Output of the transposed filter: the convolution, plus the initial delay line. -/
theorem tvDelay_out {T M : Nat} (b : Nat → Nat → α) (z x : Nat → α) {n : Nat} (hn : n < T) :
    b n 0 * x n + (if 0 < M then tvDelay M b z x n 0 else 0) = tvConv T M b x n + if n < M then z n else 0 := by
  rw [tvConv, sum_range_succ', add_comm (∑ _ ∈ _, _), add_assoc]
  refine congrArg₂ (· + ·) (by rw [if_pos (by omega), Nat.sub_zero]) ?_
  by_cases hM : 0 < M
  · rw [if_pos hM, tvDelay_eq b z x n hM]
    simp only [zero_add]
    rw [sum_window]
    refine congrArg₂ (· + ·) (sum_congr rfl fun m hm => ?_) rfl
    by_cases h : m < n
    · rw [if_pos h, if_pos (by omega), show n - 1 - m = n - (m + 1) by omega]
    · rw [if_neg h, if_neg (by omega)]
  · obtain rfl : M = 0 := by omega
    simp

/-- What the convolution leaves in the delay line after `N ≥ M` samples. -/
theorem tvDelay_final {M N : Nat} (b : Nat → Nat → α) (z x : Nat → α) (hMN : M ≤ N) {m : Nat} (hm : m < M) :
    tvDelay M b z x N m = tvConv N M b x (N + m) := by
  rw [tvDelay_eq b z x N hm, if_neg (by omega), add_zero, tvConv]
  have h1 : ∑ k ∈ range N, (if m + k < M then b (N - 1 - k) (m + k + 1) * x (N - 1 - k) else 0) =
      ∑ k ∈ range (M - m), b (N - 1 - k) (m + k + 1) * x (N - 1 - k) := by
    rw [← sum_filter]
    refine sum_congr ?_ fun _ _ => rfl
    ext k; simp only [mem_filter, mem_range]; omega
  have h2 : (∑ k ∈ range (M + 1), if k ≤ N + m ∧ N + m - k < N then b (N + m - k) k * x (N + m - k) else 0) =
      ∑ k ∈ range (m + 1 + (M - m)), if m < k then b (N + m - k) k * x (N + m - k) else 0 := by
    rw [show m + 1 + (M - m) = M + 1 by omega]
    refine sum_congr rfl fun k hk => ?_
    have := mem_range.1 hk
    by_cases h : m < k
    · rw [if_pos (by omega), if_pos h]
    · rw [if_neg (by omega), if_neg h]
  rw [h1, h2, sum_range_add, sum_eq_zero (s := range (m + 1)), zero_add]
  · refine sum_congr rfl fun k _ => ?_
    rw [if_pos (by omega), show m + 1 + k = m + k + 1 by omega, show N + m - (m + k + 1) = N - 1 - k by omega]
  · intro k hk
    rw [if_neg (by have := mem_range.1 hk; omega)]

/-- The signal whose last `M` values are the state of the time-varying direct form II. -/
def tvSignal (M : Nat) (a : Nat → Nat → α) (z x : Nat → α) : Int → α :=
  withPast z fun n => vecRec M (fun t => comp (a t)) z (first x) (n + 1) 0

theorem tv_state {M : Nat} (a : Nat → Nat → α) (z x : Nat → α) (t : Nat) {i : Nat} (hi : i < M) :
    vecRec M (fun t => comp (a t)) z (first x) t i = tvSignal M a z x ((t : Int) - 1 - i) := by
  induction t generalizing i with
  | zero =>
    rw [tvSignal, withPast, if_pos (by omega)]
    simp only [vecRec]; congr 1; omega
  | succ t ih =>
    cases i with
    | zero =>
      rw [tvSignal, withPast, if_neg (by push_cast; omega)]
      congr 1; push_cast; omega
    | succ i =>
      simp only [vecRec]
      rw [comp_mv (a t) _ hi, if_neg (by omega), Nat.add_sub_cancel, ih (by omega), first, if_neg (by omega), add_zero]
      congr 1; push_cast; ring

theorem tv_signal {M : Nat} (hM : 0 < M) (a : Nat → Nat → α) (z x : Nat → α) (n : Nat) :
    tvSignal M a z x n = x n - ∑ k ∈ range M, a n k * tvSignal M a z x ((n : Int) - 1 - k) := by
  have h := tv_state (M := M) a z x (n + 1) hM
  have e : ((n + 1 : Nat) : Int) - 1 - (0 : Nat) = n := by push_cast; ring
  rw [e] at h
  rw [← h]
  simp only [vecRec]
  rw [comp_mv (a n) _ hM, if_pos rfl, first, if_pos rfl]
  rw [sum_congr rfl fun k hk => by rw [tv_state a z x n (mem_range.1 hk)]]
  ring

omit [CommRing α] in
theorem withPast_nat (z y : Nat → α) (n : Nat) : withPast z y n = y n := by
  rw [withPast, if_neg (by omega), Int.toNat_natCast]

theorem tvSignal_eq {M : Nat} (a : Nat → Nat → α) (z x : Nat → α) :
    tvSignal M a z x = withPast z fun n => tvSignal M a z x n := by
  funext n
  by_cases h : n < 0
  · rw [tvSignal, withPast, withPast, if_pos h, if_pos h]
  · lift n to ℕ using by omega
    rw [withPast_nat]

theorem tv_allPole {M : Nat} (hM : 0 < M) (a : Nat → Nat → α) (z x : Nat → α) (T : Nat) :
    AllPole T M a z x fun n => tvSignal M a z x n := by
  intro n _
  rw [← tvSignal_eq]
  exact tv_signal hM a z x n

omit [CommRing α] in
theorem withPast_congr {z y z' y' : Nat → α} {M n k : Nat} (hz : ∀ m, m < M → z m = z' m)
    (hy : ∀ m, m < n → y m = y' m) (hk : k < M) :
    withPast z y ((n : Int) - 1 - k) = withPast z' y' ((n : Int) - 1 - k) := by
  unfold withPast
  by_cases h : (n : Int) - 1 - k < 0
  · rw [if_pos h, if_pos h, hz _ (by omega)]
  · rw [if_neg h, if_neg h, hy _ (by omega)]

/-- The all-pole recursion has one solution. -/
theorem allPole_unique {T M : Nat} {a a' : Nat → Nat → α} {z z' x x' y y' : Nat → α} (h : AllPole T M a z x y)
    (h' : AllPole T M a' z' x' y') (ha : ∀ n k, n < T → k < M → a n k = a' n k) (hz : ∀ m, m < M → z m = z' m)
    (hx : ∀ n, n < T → x n = x' n) {n : Nat} (hn : n < T) : y n = y' n := by
  induction n using Nat.strong_induction_on with
  | _ n ih =>
    rw [h n hn, h' n hn, hx n hn]
    refine congrArg₂ (· - ·) rfl (sum_congr rfl fun k hk => ?_)
    have hk := mem_range.1 hk
    rw [ha n k hn hk, withPast_congr hz (fun m hm => ih m hm (by omega)) hk]

end Spec
