import Verif.Proof.Recur
import Verif.Torch.Linalg

/-! # Facts about the vector recurrence -/

namespace Spec
open Finset Torch
variable {α : Type} [CommRing α]

theorem vecRec_congr {M : Nat} {A A' : Nat → Nat → Nat → α} {h h' : Nat → α} {x x' : Nat → Nat → α} {n : Nat}
    (hh : ∀ i, i < M → h i = h' i) (hA : ∀ t, t < n → ∀ i k, i < M → k < M → A t i k = A' t i k)
    (hx : ∀ t, t < n → ∀ i, i < M → x t i = x' t i) {i : Nat} (hi : i < M) :
    vecRec M A h x n i = vecRec M A' h' x' n i := by
  induction n generalizing i with
  | zero => exact hh i hi
  | succ n ih =>
    simp only [vecRec]
    rw [hx n (by omega) i hi]
    congr 1
    refine sum_congr rfl fun k hk => ?_
    rw [mem_range] at hk
    rw [hA n (by omega) i k hi hk, ih (fun t ht => hA t (by omega)) (fun t ht => hx t (by omega)) hk]

theorem vecRec_add (M : Nat) (A : Nat → Nat → Nat → α) (h : Nat → α) (x : Nat → Nat → α) (s n : Nat) :
    vecRec M A h x (s + n) = vecRec M (fun t => A (s + t)) (vecRec M A h x s) (fun t => x (s + t)) n := by
  induction n with
  | zero => rfl
  | succ n ih => rw [← Nat.add_assoc]; simp only [vecRec]; rw [ih]

/-- Associativity of matrix–matrix–vector products. -/
theorem fm_mv {M P Q : Nat} (A : Matrix (Fin M) (Fin P) α) (B : Matrix (Fin P) (Fin Q) α) (v : Nat → α) (i : Nat) :
    ∑ k ∈ range P, fm A i k * ∑ j ∈ range Q, fm B k j * v j = ∑ j ∈ range Q, fm (A * B) i j * v j := by
  simp only [mul_sum]
  rw [sum_comm]
  refine sum_congr rfl fun j _ => ?_
  rw [← fm_mul, sum_mul]
  exact sum_congr rfl fun k _ => by ring

theorem fm_one_mv {M : Nat} (v : Nat → α) {i : Nat} (hi : i < M) :
    ∑ j ∈ range M, fm (1 : Matrix (Fin M) (Fin M) α) i j * v j = v i := by
  rw [sum_eq_single i]
  · rw [fm_one i i hi, if_pos rfl, one_mul]
  · intro j _ hj
    rw [fm_one i j hi, if_neg (Ne.symm hj), zero_mul]
  · intro h; exact absurd (mem_range.mpr hi) h

/-- Closed form with a constant matrix. -/
theorem vecRec_const {M : Nat} (A : Matrix (Fin M) (Fin M) α) (h : Nat → α) (x : Nat → Nat → α) (n : Nat)
    {i : Nat} (hi : i < M) :
    vecRec M (fun _ => fm A) h x n i = ∑ k ∈ range M, fm (A ^ n) i k * h k +
      ∑ w ∈ range n, ∑ k ∈ range M, fm (A ^ (n - 1 - w)) i k * x w k := by
  induction n generalizing i with
  | zero => simp only [vecRec, pow_zero, range_zero, sum_empty, add_zero]; rw [fm_one_mv h hi]
  | succ n ih =>
    simp only [vecRec]
    rw [show ∑ k ∈ range M, fm A i k * vecRec M (fun _ => fm A) h x n k = ∑ k ∈ range M, fm A i k *
      (∑ j ∈ range M, fm (A ^ n) k j * h j + ∑ w ∈ range n, ∑ j ∈ range M, fm (A ^ (n - 1 - w)) k j * x w j) from
      sum_congr rfl fun k hk => by rw [ih (mem_range.mp hk)]]
    simp only [mul_add, sum_add_distrib]
    rw [fm_mv, ← pow_succ', sum_range_succ (fun w => ∑ k ∈ range M, fm (A ^ (n + 1 - 1 - w)) i k * x w k), add_assoc]
    congr 2
    · rw [show ∑ k ∈ range M, fm A i k * ∑ w ∈ range n, ∑ j ∈ range M, fm (A ^ (n - 1 - w)) k j * x w j =
        ∑ w ∈ range n, ∑ k ∈ range M, fm A i k * ∑ j ∈ range M, fm (A ^ (n - 1 - w)) k j * x w j from by
          simp only [mul_sum]; rw [sum_comm]]
      refine sum_congr rfl fun w hw => ?_
      rw [mem_range] at hw
      rw [fm_mv, ← pow_succ', show n - 1 - w + 1 = n + 1 - 1 - w by omega]
    · rw [show n + 1 - 1 - n = 0 by omega, pow_zero, fm_one_mv _ hi]

/-- The recurrence sampled at block boundaries is again a recurrence. -/
theorem vecRec_block {M : Nat} (A : Matrix (Fin M) (Fin M) α) (h : Nat → α) (x : Nat → Nat → α) (u k : Nat)
    {i : Nat} (hi : i < M) :
    vecRec M (fun _ => fm (A ^ u)) h
      (fun k i => ∑ w ∈ range u, ∑ j ∈ range M, fm (A ^ (u - 1 - w)) i j * x (k * u + w) j) k i =
      vecRec M (fun _ => fm A) h x (k * u) i := by
  induction k generalizing i with
  | zero => simp [vecRec]
  | succ k ih =>
    rw [Nat.succ_mul, vecRec_add M (fun _ => fm A) h x (k * u), vecRec_const A _ _ u hi]
    simp only [vecRec]
    congr 1
    refine sum_congr rfl fun j hj => ?_
    rw [ih (mem_range.mp hj)]

theorem sum_range_mul_div (K M : Nat) (F : Nat → Nat → α) :
    ∑ q ∈ range (K * M), F (q / M) (q % M) = ∑ w ∈ range K, ∑ k ∈ range M, F w k := by
  induction K with
  | zero => simp
  | succ K ih =>
    rw [Nat.succ_mul, sum_range_add, ih, sum_range_succ]
    congr 1
    refine sum_congr rfl fun k hk => ?_
    rw [mem_range] at hk
    have hM : 0 < M := by omega
    rw [Nat.add_comm, Nat.add_mul_div_right _ _ hM, Nat.div_eq_of_lt hk, Nat.zero_add, Nat.add_mul_mod_self_right,
      Nat.mod_eq_of_lt hk]

theorem sum_range_add_ite (M Q : Nat) (f f' g g' : Nat → α) :
    ∑ q ∈ range (M + Q), (if q < M then f q else g (q - M)) * (if q < M then f' q else g' (q - M)) =
      ∑ q ∈ range M, f q * f' q + ∑ q ∈ range Q, g q * g' q := by
  rw [sum_range_add]
  congr 1
  · refine sum_congr rfl fun q hq => ?_
    rw [mem_range] at hq
    rw [if_pos hq, if_pos hq]
  · refine sum_congr rfl fun q _ => ?_
    rw [if_neg (by omega), if_neg (by omega), Nat.add_sub_cancel_left]

/-- The outputs inside a block: `A^(i+1) h + Σ_{w ≤ i} A^(i-w) x_w`. -/
theorem vecRec_inner {M : Nat} (A : Matrix (Fin M) (Fin M) α) (h : Nat → α) (x : Nat → Nat → α) (u i : Nat)
    (hiu : i + 1 ≤ u) {m : Nat} (hm : m < M) :
    ∑ k ∈ range M, h k * fm (A ^ (i + 1)) m k +
      ∑ w ∈ range u, ∑ k ∈ range M, x w k * (if w ≤ i then fm (A ^ (i - w)) m k else 0) =
      vecRec M (fun _ => fm A) h x (i + 1) m := by
  rw [vecRec_const A h x _ hm]
  congr 1
  · exact sum_congr rfl fun k _ => mul_comm _ _
  · rw [← sum_subset (s₁ := range (i + 1)) (by intro w; simp; omega)]
    · refine sum_congr rfl fun w hw => sum_congr rfl fun k _ => ?_
      rw [mem_range] at hw
      rw [if_pos (by omega), mul_comm, show i + 1 - 1 - w = i - w by omega]
    · intro w _ hw
      rw [mem_range] at hw
      exact sum_eq_zero fun k _ => by rw [if_neg (by omega), mul_zero]

end Spec
