import Verif.Spec.Grad
import Verif.Proof.Recur
import Mathlib.Tactic.Ring
import Mathlib.Tactic.LinearCombination

/-! # Adjoint identities for the recurrences -/

namespace Spec
open Finset
variable {α : Type} [CommRing α] [StarRing α]

theorem scalar_adjoint (N : Nat) (a da : Nat → α) (init dinit : α) (x dx g c : Nat → α)
    (hc : ∀ s, 0 < s → s < N → c s = star (a (N - s))) :
    ip1 N g (fun n => dScalarRec a da init dinit x dx (n + 1)) =
      star (star (a 0) * scalarRec c 0 (fun s => g (N - 1 - s)) N) * dinit +
        ip1 N (fun n => scalarRec c 0 (fun s => g (N - 1 - s)) (N - n))
          (fun n => da n * scalarRec a init x n + dx n) := by
  set m := scalarRec c 0 (fun s => g (N - 1 - s)) with hm
  set d := dScalarRec a da init dinit x dx with hd
  set u := fun n => da n * scalarRec a init x n + dx n with hu
  let P : Nat → α := fun s => star (m s) * (a (N - s) * d (N - s))
  have step : ∀ s, s < N → star (g (N - 1 - s)) * d (N - 1 - s + 1) =
      (P (s + 1) - P s) + star (m (s + 1)) * u (N - 1 - s) := by
    intro s hs
    have h1 : m (s + 1) = c s * m s + g (N - 1 - s) := rfl
    have h2 : d (N - 1 - s + 1) = a (N - 1 - s) * d (N - 1 - s) + u (N - 1 - s) := by
      simp only [hd, hu, dScalarRec]; ring
    have h3 : star (m (s + 1)) * d (N - 1 - s + 1) = P s + star (g (N - 1 - s)) * d (N - 1 - s + 1) := by
      rw [h1, star_add, star_mul]
      have hs' : N - 1 - s + 1 = N - s := by omega
      rw [hs']
      rcases Nat.eq_zero_or_pos s with rfl | h0
      · simp only [P, show m 0 = 0 from rfl, star_zero]; ring
      · rw [hc s h0 hs, star_star]; simp only [P]; ring
    have h4 : P (s + 1) = star (m (s + 1)) * (a (N - 1 - s) * d (N - 1 - s)) := by
      simp only [P]; rw [show N - (s + 1) = N - 1 - s by omega]
    rw [h4]
    rw [h2] at h3 ⊢
    linear_combination -h3
  unfold ip1
  rw [← sum_range_reflect, sum_congr rfl fun s hs => step s (mem_range.1 hs), sum_add_distrib, sum_range_sub]
  rw [← sum_range_reflect (fun n => star (m (N - n)) * u n)]
  congr 1
  · simp only [P, Nat.sub_self, show m 0 = 0 from rfl, star_zero, star_mul, star_star, show d 0 = dinit from rfl]
    ring
  · refine sum_congr rfl fun s hs => ?_
    rw [mem_range] at hs
    rw [show N - (N - 1 - s) = s + 1 by omega]

theorem vec_adjoint (M N : Nat) (A dA : Nat → Nat → Nat → α) (init dinit : Nat → α) (x dx g : Nat → Nat → α)
    (C : Nat → Nat → Nat → α) (hc : ∀ s, 0 < s → s < N → ∀ i k, i < M → k < M → C s i k = star (A (N - s) k i)) :
    ip2 N M g (fun n => dVecRec M A dA init dinit x dx (n + 1)) =
      ip1 M (fun i => ∑ k ∈ range M, star (A 0 k i) * vecRec M C (fun _ => 0) (fun s => g (N - 1 - s)) N k) dinit +
        ip2 N M (fun n => vecRec M C (fun _ => 0) (fun s => g (N - 1 - s)) (N - n))
          (fun n i => ∑ k ∈ range M, dA n i k * vecRec M A init x n k + dx n i) := by
  set m := vecRec M C (fun _ => 0) (fun s => g (N - 1 - s)) with hm
  set d := dVecRec M A dA init dinit x dx with hd
  set u := fun n i => ∑ k ∈ range M, dA n i k * vecRec M A init x n k + dx n i with hu
  let P : Nat → α := fun s => ∑ i ∈ range M, star (m s i) * ∑ k ∈ range M, A (N - s) i k * d (N - s) k
  have swap : ∀ (B : Nat → Nat → α) (v w : Nat → α),
      ∑ i ∈ range M, star (∑ k ∈ range M, star (B k i) * v k) * w i =
        ∑ i ∈ range M, star (v i) * ∑ k ∈ range M, B i k * w k := by
    intro B v w
    simp only [star_sum, star_mul, star_star, sum_mul, mul_sum]
    rw [sum_comm]
    exact sum_congr rfl fun k _ => sum_congr rfl fun i _ => by ring
  have step : ∀ s, s < N → ip1 M (g (N - 1 - s)) (d (N - 1 - s + 1)) =
      (P (s + 1) - P s) + ip1 M (m (s + 1)) (u (N - 1 - s)) := by
    intro s hs
    have h1 : ∀ i, m (s + 1) i = ∑ k ∈ range M, C s i k * m s k + g (N - 1 - s) i := fun i => rfl
    have h2 : ∀ i, d (N - 1 - s + 1) i =
        ∑ k ∈ range M, A (N - 1 - s) i k * d (N - 1 - s) k + u (N - 1 - s) i := by
      intro i; simp only [hd, hu, dVecRec]; ring
    have h3 : ip1 M (m (s + 1)) (d (N - 1 - s + 1)) = P s + ip1 M (g (N - 1 - s)) (d (N - 1 - s + 1)) := by
      have hs' : N - 1 - s + 1 = N - s := by omega
      rw [hs']
      have : ip1 M (m (s + 1)) (d (N - s)) =
          ∑ i ∈ range M, star (∑ k ∈ range M, C s i k * m s k) * d (N - s) i + ip1 M (g (N - 1 - s)) (d (N - s)) := by
        unfold ip1
        rw [← sum_add_distrib]
        refine sum_congr rfl fun i _ => ?_
        rw [h1, star_add]; ring
      rw [this]
      congr 1
      rcases Nat.eq_zero_or_pos s with rfl | h0
      · simp only [P, show m 0 = fun _ => 0 from rfl, mul_zero, sum_const_zero, star_zero, zero_mul]
      · refine Eq.trans ?_ (swap (A (N - s)) (m s) (d (N - s)))
        refine sum_congr rfl fun i hi => ?_
        congr 2
        refine sum_congr rfl fun k hk => ?_
        rw [hc s h0 hs i k (mem_range.1 hi) (mem_range.1 hk)]
    have h4 : P (s + 1) = ip1 M (m (s + 1)) (fun i => ∑ k ∈ range M, A (N - 1 - s) i k * d (N - 1 - s) k) := by
      simp only [P, ip1]; rw [show N - (s + 1) = N - 1 - s by omega]
    have h5 : ip1 M (m (s + 1)) (d (N - 1 - s + 1)) = P (s + 1) + ip1 M (m (s + 1)) (u (N - 1 - s)) := by
      rw [h4]; unfold ip1
      rw [← sum_add_distrib]
      refine sum_congr rfl fun i _ => ?_
      rw [h2]; ring
    rw [h5] at h3
    linear_combination -h3
  unfold ip2
  rw [← sum_range_reflect, sum_congr rfl fun s hs => step s (mem_range.1 hs), sum_add_distrib, sum_range_sub]
  rw [← sum_range_reflect (fun n => ip1 M (m (N - n)) (u n))]
  congr 1
  · simp only [ip1]
    rw [swap]
    simp only [P, Nat.sub_self, show m 0 = fun _ => 0 from rfl, star_zero, zero_mul, sum_const_zero, sub_zero,
      show d 0 = dinit from rfl]
  · refine sum_congr rfl fun s hs => ?_
    rw [mem_range] at hs
    rw [show N - (N - 1 - s) = s + 1 by omega]

end Spec
