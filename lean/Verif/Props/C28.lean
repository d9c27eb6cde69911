import Verif.Proof.LpvAllpole
import Mathlib.NumberTheory.Zsqrtd.GaussianInt

/-!
# C28: `lpv.allpole`

Full claim: for every order `M ≥ 1` and every length `N ≥ 1`, `allpole` solves the all-pole recursion with the
coefficients in force at the output sample (`transpose=False`) or at the time of the fed-back output (`transpose=True`),
and the final state continues the filter.  The transposed form raises when `N < M`, even without a state, and
conjugates complex coefficients; the final state of the direct form is what `torchlpc` returns, which is assumed to be
right for `M ≤ N` only.  `star` below is the identity for real numbers.
-/

namespace Props
open Torch Torch.Tensor Spec Phil Phil.Lpv
open Phil.Lti (ok_pair)
variable {α : Type} [CommRing α] [StarRing α]

/-- **C28, direct form, no state.** `y_n = x_n - Σ_{k<M} a_{n,k} y_{n-1-k}`. -/
theorem C28_direct {B M N : Nat} {lpc : Lpc α} (hl : IsLpc lpc) (a : Nat → Nat → Nat → α) (x : Nat → Nat → α)
    (hM : 0 < M) (hN : 0 < N) : ∃ y : Nat → Nat → α,
      (∀ i n, n < N → y i n = x i n - ∑ k ∈ Finset.range M, a i n k * causal (y i) ((n : Int) - 1 - k)) ∧
      allpole lpc (t3 B N M a) (t2 B N x) none false = .ok (t2 B N y, none) := by
  obtain ⟨y, zf, e, hy, _⟩ := hl B N M x a _ _ hN hM (.given fun _ _ => 0)
  refine ⟨y, fun i => hy i, ?_⟩
  rw [allpole_none_eq, if_neg (by simp)]
  exact bind_step e rfl

example := C28_direct (B := 2) (M := 2) (N := 7) Lpv.refLpc_isLpc (fun i t k => (i : ℤ) + t * k) (fun i t => (i : ℤ) * t) (by decide) (by decide)

/-- **C28 (partial), direct form with past outputs** `z_0 = y_{-1}, z_1 = y_{-2}, …`; the final state lists the last `M`
outputs, most recent first.  Missing: the final state for `N < M`. -/
theorem C28_direct_state_partial {B M N : Nat} {lpc : Lpc α} (hl : IsLpc lpc) (a : Nat → Nat → Nat → α)
    (x z : Nat → Nat → α) (hM : 0 < M) (hN : 0 < N) : ∃ (y : Nat → Nat → α) (zf : Tensor α),
      (∀ i n, n < N → y i n = x i n - ∑ k ∈ Finset.range M, a i n k * withPast (z i) (y i) ((n : Int) - 1 - k)) ∧
      (M ≤ N → zf = t2 B M fun i m => y i (N - 1 - m)) ∧
      allpole lpc (t3 B N M a) (t2 B N x) (some (t2 B M z)) false = .ok (t2 B N y, some zf) := by
  obtain ⟨y, zf, e, hy, hf⟩ := hl B N M x a _ _ hN hM (.given z)
  refine ⟨y, zf, fun i => hy i, fun h => ?_, ?_⟩
  · rw [hf h]
    refine t2_congr rfl rfl fun i m hi hm => ?_
    rw [withPast, if_neg (by omega), show ((N : Int) - 1 - m).toNat = N - 1 - m by omega]
  · rw [allpole_some_eq, if_neg (by simp)]
    exact bind_step e rfl

example := C28_direct_state_partial (B := 2) (M := 2) (N := 7) Lpv.refLpc_isLpc (fun i t k => (i : ℤ) + t * k) (fun i t => (i : ℤ) * t)
  (fun i t => (i : ℤ) + t) (by decide) (by decide)

/-- **C28 (partial), transposed form, no state.** `y_n = x_n - Σ_{k<M, k<n} a_{n-1-k,k} y_{n-1-k}` for real
coefficients.  Missing: `N < M`. -/
theorem C28_transposed_partial {B M N : Nat} {lpc : Lpc α} (hl : IsLpc lpc) (a : Nat → Nat → Nat → α)
    (x : Nat → Nat → α) (hM : 0 < M) (hMN : M ≤ N) : ∃ y : Nat → Nat → α,
      (∀ i n, n < N → y i n = x i n -
        ∑ k ∈ Finset.range M, if k < n then star (a i (n - 1 - k) k) * y i (n - 1 - k) else 0) ∧
      allpole lpc (t3 B N M a) (t2 B N x) none true = .ok (t2 B N y, none) := by
  obtain ⟨y, hy, e⟩ := allpoleTransposed_eq (B := B) hl a x (fun _ _ => 0) false (by omega) hM hMN
  refine ⟨y, fun i n hn => ?_, ?_⟩
  · rw [hy i n hn, sub_eq_add_neg, tvDelay_eq _ _ _ _ hM, ite_self, add_zero, ← Finset.sum_neg_distrib]
    simp only [zero_add]
    rw [sum_window]
    refine congrArg₂ (· + ·) rfl (Finset.sum_congr rfl fun k _ => ?_)
    by_cases h : k < n
    · rw [if_pos h, if_pos h, poleTaps, if_neg (by omega), Nat.add_sub_cancel, neg_mul]
    · rw [if_neg h, if_neg h, neg_zero]
  · rw [allpole_none_eq, if_pos rfl, e]
    rfl

example := C28_transposed_partial (B := 2) (M := 2) (N := 7) Lpv.refLpc_isLpc (fun i t k => (i : ℤ) + t * k) (fun i t => (i : ℤ) * t) (by decide)
  (by decide)

/-- **C28 (partial), transposed form with delay line**: `y_n = x_n + s_0`, `s_m' = -a_{n,m} y_n + s_{m+1}` with
`s_M = 0`, started from `zi`; the final delay line is returned.  Missing: `N < M`. -/
theorem C28_transposed_state_partial {B M N : Nat} {lpc : Lpc α} (hl : IsLpc lpc) (a : Nat → Nat → Nat → α)
    (x z : Nat → Nat → α) (hM : 0 < M) (hMN : M ≤ N) : ∃ (y : Nat → Nat → α) (s : Nat → Nat → Nat → α),
      (∀ i m, m < M → s i 0 m = z i m) ∧ (∀ i n, n < N → y i n = x i n + s i n 0) ∧
      (∀ i n m, m < M → s i (n + 1) m = -star (a i n m) * y i n + if m + 1 < M then s i n (m + 1) else 0) ∧
      allpole lpc (t3 B N M a) (t2 B N x) (some (t2 B M z)) true = .ok (t2 B N y, some (t2 B M fun i m => s i N m)) := by
  obtain ⟨y, hy, e⟩ := allpoleTransposed_eq (B := B) hl a x z true (by omega) hM hMN
  refine ⟨y, fun i => tvDelay M (poleTaps (a i)) (z i) (y i), fun i m _ => rfl, hy, fun i n m _ => rfl, ?_⟩
  rw [allpole_some_eq, if_pos rfl, e]
  rfl

/-- **C28 is false for signals shorter than the order**: the transposed form raises, whatever `torchlpc` does and
although no state is given. -/
theorem C28_short_transposed {B M N : Nat} (lpc : Lpc α) (a : Nat → Nat → Nat → α) (x : Nat → Nat → α) (hN : 2 ≤ N)
    (hMN : N < M) : Fails (allpole lpc (t3 B N M a) (t2 B N x) none true) := by
  rw [allpole_none_eq, if_pos rfl]
  unfold allpoleTransposed
  refine fails_bind fun s hs => ?_
  rw [Phil.Lti.conj_t3, diagShift_t3] at hs
  cases hs
  refine fails_bind fun x1 hx1 => ?_
  rw [size_t3_2, slice_t2_1, pyStop_nat, pyStart_none, Nat.min_eq_right (by omega), Nat.sub_zero] at hx1
  cases hx1
  exact fails_left (add_short_fails (m := M) (p := N) _ _ (by omega) (by omega) (by omega))

/-- Three coefficients, two samples. -/
example := C28_short_transposed (B := 2) (M := 3) (N := 2) Lpv.refLpc (fun i t k => (i : ℤ) + t * k) (fun i t => (i : ℤ) * t) (by decide)
  (by decide)

omit [StarRing α] in
/-- The contract assumed of `torchlpc` can be met. -/
theorem C28_contract : ∃ lpc : Lpc α, IsLpc lpc := ⟨refLpc, refLpc_isLpc⟩

/-- Complex coefficients: the transposed form conjugates them (`a = [i, 0]`, `x = [1, 0]` gives `y_1 = i`), the direct
form does not. -/
theorem C28_transposed_complex :
    at? ((allpole refLpc (t3 1 2 2 fun _ _ k => if k = 0 then (⟨0, 1⟩ : GaussianInt) else 0)
      (t2 1 2 fun _ n => if n = 0 then 1 else 0) none true).map Prod.fst) [0, 1] = some ⟨0, 1⟩ ∧
    at? ((allpole refLpc (t3 1 2 2 fun _ _ k => if k = 0 then (⟨0, 1⟩ : GaussianInt) else 0)
      (t2 1 2 fun _ n => if n = 0 then 1 else 0) none false).map Prod.fst) [0, 1] = some ⟨0, -1⟩ := by
  decide +kernel

/-- Non-vacuity: time-varying coefficients, three samples, delay line of length two. -/
example : ∃ (y : Nat → Nat → ℤ) (s : Nat → Nat → Nat → ℤ),
    (∀ i m, m < 2 → s i 0 m = (m : ℤ) + 5) ∧ (∀ i n, n < 3 → y i n = ((n : ℤ) + 1) + s i n 0) ∧
    (∀ i n m, m < 2 → s i (n + 1) m = -star ((n : ℤ) + (m : ℤ)) * y i n + if m + 1 < 2 then s i n (m + 1) else 0) ∧
    allpole refLpc (t3 1 3 2 fun _ n k => (n : ℤ) + (k : ℤ)) (t2 1 3 fun _ n => (n : ℤ) + 1)
      (some (t2 1 2 fun _ m => (m : ℤ) + 5)) true = .ok (t2 1 3 y, some (t2 1 2 fun i m => s i 3 m)) :=
  C28_transposed_state_partial refLpc_isLpc (fun _ n k => (n : ℤ) + (k : ℤ)) (fun _ n => (n : ℤ) + 1)
    (fun _ m => (m : ℤ) + 5) (by decide) (by decide)

/-- The two forms differ as soon as the coefficients vary in time. -/
example : at? ((allpole refLpc (t3 1 2 1 fun _ n _ => (n : ℤ) + 1) (t2 1 2 fun _ _ => 1) none true).map Prod.fst) [0, 1] =
      some 0 ∧
    at? ((allpole refLpc (t3 1 2 1 fun _ n _ => (n : ℤ) + 1) (t2 1 2 fun _ _ => 1) none false).map Prod.fst) [0, 1] =
      some (-1) := by decide +kernel

end Props
