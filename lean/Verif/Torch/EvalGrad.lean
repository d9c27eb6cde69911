import Verif.Torch.Loop

/-! # Further evaluation lemmas, used for the gradient and kernel models -/

namespace Torch
set_option linter.unusedSimpArgs false
namespace Tensor
section
variable {α : Type} [CommSemiring α]

theorem matmulCore_pq_nmqr (p q n m r : Nat) (f : Nat → Nat → α) (g : Nat → Nat → Nat → Nat → α) :
    matmulCore (t2 p q f) (t4 n m q r g) =
      .ok (t4 n m p r fun i j k o => ∑ w ∈ Finset.range q, f k w * g i j w o) := by
  simp only [matmulCore]
  tev_mm
  rw [check_true trivial]
  refine congrArg Except.ok (ext4 rfl rfl ?_)
  intro i j k o hi hj hk ho
  tev_mmget
  refine Finset.sum_congr rfl fun w hw => ?_
  rw [Finset.mem_range] at hw
  tev_mmel

theorem matmul_pq_nmqr (p q n m r : Nat) (f : Nat → Nat → α) (g : Nat → Nat → Nat → Nat → α) :
    matmul (t2 p q f) (t4 n m q r g) =
      .ok (t4 n m p r fun i j k o => ∑ w ∈ Finset.range q, f k w * g i j w o) := by
  simp only [matmul, rank_t1, rank_t2, rank_t3, rank_t4, rank_t5]
  rw [check_true (by decide)]
  simp only [ok_bind, pure_eq_ok, if_true, if_false, OfNat.ofNat_ne_one, matmulCore_pq_nmqr]

theorem matmulCore_n1pq_nmqr (n p q m r : Nat) (f g : Nat → Nat → Nat → Nat → α) :
    matmulCore (t4 n 1 p q f) (t4 n m q r g) =
      .ok (t4 n m p r fun i j k o => ∑ w ∈ Finset.range q, f i 0 k w * g i j w o) := by
  simp only [matmulCore]
  tev_mm
  rw [check_true trivial]
  refine congrArg Except.ok (ext4 rfl rfl ?_)
  intro i j k o hi hj hk ho
  tev_mmget
  refine Finset.sum_congr rfl fun w hw => ?_
  rw [Finset.mem_range] at hw
  tev_mmel

theorem matmul_n1pq_nmqr (n p q m r : Nat) (f g : Nat → Nat → Nat → Nat → α) :
    matmul (t4 n 1 p q f) (t4 n m q r g) =
      .ok (t4 n m p r fun i j k o => ∑ w ∈ Finset.range q, f i 0 k w * g i j w o) := by
  simp only [matmul, rank_t1, rank_t2, rank_t3, rank_t4, rank_t5]
  rw [check_true (by decide)]
  simp only [ok_bind, pure_eq_ok, if_true, if_false, OfNat.ofNat_ne_one, matmulCore_n1pq_nmqr]

theorem matmulCore_nmpq_n1qr (n p q m r : Nat) (f g : Nat → Nat → Nat → Nat → α) :
    matmulCore (t4 n m p q f) (t4 n 1 q r g) =
      .ok (t4 n m p r fun i j k o => ∑ w ∈ Finset.range q, f i j k w * g i 0 w o) := by
  simp only [matmulCore]
  tev_mm
  rw [check_true trivial]
  refine congrArg Except.ok (ext4 rfl rfl ?_)
  intro i j k o hi hj hk ho
  tev_mmget
  refine Finset.sum_congr rfl fun w hw => ?_
  rw [Finset.mem_range] at hw
  tev_mmel

theorem matmul_nmpq_n1qr (n p q m r : Nat) (f g : Nat → Nat → Nat → Nat → α) :
    matmul (t4 n m p q f) (t4 n 1 q r g) =
      .ok (t4 n m p r fun i j k o => ∑ w ∈ Finset.range q, f i j k w * g i 0 w o) := by
  simp only [matmul, rank_t1, rank_t2, rank_t3, rank_t4, rank_t5]
  rw [check_true (by decide)]
  simp only [ok_bind, pure_eq_ok, if_true, if_false, OfNat.ofNat_ne_one, matmulCore_nmpq_n1qr]

theorem matmulCore_mpq_n1qr (n p q m r : Nat) (f : Nat → Nat → Nat → α) (g : Nat → Nat → Nat → Nat → α) :
    matmulCore (t3 m p q f) (t4 n 1 q r g) =
      .ok (t4 n m p r fun i j k o => ∑ w ∈ Finset.range q, f j k w * g i 0 w o) := by
  simp only [matmulCore]
  tev_mm
  rw [check_true trivial]
  refine congrArg Except.ok (ext4 rfl rfl ?_)
  intro i j k o hi hj hk ho
  tev_mmget
  refine Finset.sum_congr rfl fun w hw => ?_
  rw [Finset.mem_range] at hw
  tev_mmel

theorem matmul_mpq_n1qr (n p q m r : Nat) (f : Nat → Nat → Nat → α) (g : Nat → Nat → Nat → Nat → α) :
    matmul (t3 m p q f) (t4 n 1 q r g) =
      .ok (t4 n m p r fun i j k o => ∑ w ∈ Finset.range q, f j k w * g i 0 w o) := by
  simp only [matmul, rank_t1, rank_t2, rank_t3, rank_t4, rank_t5]
  rw [check_true (by decide)]
  simp only [ok_bind, pure_eq_ok, if_true, if_false, OfNat.ofNat_ne_one, matmulCore_mpq_n1qr]

end

section
variable {α : Type} [Zero α]

theorem permute120_t3 (n m p : Nat) (f : Nat → Nat → Nat → α) :
    permute120 (t3 n m p f) = .ok (t3 m p n fun i j k => f k i j) := by
  unfold permute120
  rw [check_true (by rfl), ok_bind, pure_eq_ok]
  refine congrArg Except.ok (ext3 (n := m) (m := p) (p := n) rfl rfl ?_)
  intro i j k hi hj hk
  rw [get_t3 hi hj hk]
  change (ofFn [m, p, n] _).get _ = _
  rw [get_ofFn, if_pos (show inB [i, j, k] [m, p, n] = true by simp [inB, hi, hj, hk])]
  exact get_t3 hk hi hj
end

end Tensor
end Torch
