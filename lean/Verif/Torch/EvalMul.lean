import Verif.Torch.EvalExp

/-!
# Evaluation lemmas (generated by tools/gen_eval.py)

Matrix products and dot products.
-/

namespace Torch
namespace Tensor
variable {α : Type} [CommSemiring α]
set_option linter.unusedVariables false
set_option linter.unusedSimpArgs false

@[tens] theorem matmulCore_nm_mp (n m p : Nat) (f : Nat → Nat → α) (g : Nat → Nat → α) :
    matmulCore (t2 n m f) (t2 m p g) =
      .ok (t2 n p fun i j => ∑ w ∈ Finset.range m, f i w * g w j) := by
  tev_mm
  rw [check_true trivial]
  refine congrArg Except.ok (ext2 rfl rfl ?_)
  intro i j hi hj
  tev_mmget
  refine Finset.sum_congr rfl fun w hw => ?_
  rw [Finset.mem_range] at hw
  tev_mmel

@[tens] theorem matmul_nm_mp (n m p : Nat) (f : Nat → Nat → α) (g : Nat → Nat → α) :
    matmul (t2 n m f) (t2 m p g) =
      .ok (t2 n p fun i j => ∑ w ∈ Finset.range m, f i w * g w j) := by
  simp only [matmul, rank_t1, rank_t2, rank_t3, rank_t4, rank_t5]
  rw [check_true (by decide)]
  simp only [ok_bind, pure_eq_ok, if_true, if_false, OfNat.ofNat_ne_one, matmulCore_nm_mp]

@[tens] theorem matmulCore_nmp_pq (n m p q : Nat) (f : Nat → Nat → Nat → α) (g : Nat → Nat → α) :
    matmulCore (t3 n m p f) (t2 p q g) =
      .ok (t3 n m q fun i j k => ∑ w ∈ Finset.range p, f i j w * g w k) := by
  tev_mm
  rw [check_true trivial]
  refine congrArg Except.ok (ext3 rfl rfl ?_)
  intro i j k hi hj hk
  tev_mmget
  refine Finset.sum_congr rfl fun w hw => ?_
  rw [Finset.mem_range] at hw
  tev_mmel

@[tens] theorem matmul_nmp_pq (n m p q : Nat) (f : Nat → Nat → Nat → α) (g : Nat → Nat → α) :
    matmul (t3 n m p f) (t2 p q g) =
      .ok (t3 n m q fun i j k => ∑ w ∈ Finset.range p, f i j w * g w k) := by
  simp only [matmul, rank_t1, rank_t2, rank_t3, rank_t4, rank_t5]
  rw [check_true (by decide)]
  simp only [ok_bind, pure_eq_ok, if_true, if_false, OfNat.ofNat_ne_one, matmulCore_nmp_pq]

@[tens] theorem matmulCore_nmp_npq (n m p q : Nat) (f : Nat → Nat → Nat → α) (g : Nat → Nat → Nat → α) :
    matmulCore (t3 n m p f) (t3 n p q g) =
      .ok (t3 n m q fun i j k => ∑ w ∈ Finset.range p, f i j w * g i w k) := by
  tev_mm
  rw [check_true trivial]
  refine congrArg Except.ok (ext3 rfl rfl ?_)
  intro i j k hi hj hk
  tev_mmget
  refine Finset.sum_congr rfl fun w hw => ?_
  rw [Finset.mem_range] at hw
  tev_mmel

@[tens] theorem matmul_nmp_npq (n m p q : Nat) (f : Nat → Nat → Nat → α) (g : Nat → Nat → Nat → α) :
    matmul (t3 n m p f) (t3 n p q g) =
      .ok (t3 n m q fun i j k => ∑ w ∈ Finset.range p, f i j w * g i w k) := by
  simp only [matmul, rank_t1, rank_t2, rank_t3, rank_t4, rank_t5]
  rw [check_true (by decide)]
  simp only [ok_bind, pure_eq_ok, if_true, if_false, OfNat.ofNat_ne_one, matmulCore_nmp_npq]

@[tens] theorem matmulCore_mp_npq (m p n q : Nat) (f : Nat → Nat → α) (g : Nat → Nat → Nat → α) :
    matmulCore (t2 m p f) (t3 n p q g) =
      .ok (t3 n m q fun i j k => ∑ w ∈ Finset.range p, f j w * g i w k) := by
  tev_mm
  rw [check_true trivial]
  refine congrArg Except.ok (ext3 rfl rfl ?_)
  intro i j k hi hj hk
  tev_mmget
  refine Finset.sum_congr rfl fun w hw => ?_
  rw [Finset.mem_range] at hw
  tev_mmel

@[tens] theorem matmul_mp_npq (m p n q : Nat) (f : Nat → Nat → α) (g : Nat → Nat → Nat → α) :
    matmul (t2 m p f) (t3 n p q g) =
      .ok (t3 n m q fun i j k => ∑ w ∈ Finset.range p, f j w * g i w k) := by
  simp only [matmul, rank_t1, rank_t2, rank_t3, rank_t4, rank_t5]
  rw [check_true (by decide)]
  simp only [ok_bind, pure_eq_ok, if_true, if_false, OfNat.ofNat_ne_one, matmulCore_mp_npq]

@[tens] theorem matmulCore_mp_p1 (m p : Nat) (f : Nat → Nat → α) (g : Nat → Nat → α) :
    matmulCore (t2 m p f) (t2 p 1 g) =
      .ok (t2 m 1 fun i j => ∑ w ∈ Finset.range p, f i w * g w j) := by
  tev_mm
  rw [check_true trivial]
  refine congrArg Except.ok (ext2 rfl rfl ?_)
  intro i j hi hj
  tev_mmget
  refine Finset.sum_congr rfl fun w hw => ?_
  rw [Finset.mem_range] at hw
  tev_mmel

@[tens] theorem matmul_mp_p (m p : Nat) (f : Nat → Nat → α) (g : Nat → α) :
    matmul (t2 m p f) (t1 p g) =
      .ok (t1 m fun i => ∑ w ∈ Finset.range p, f i w * g w) := by
  simp only [matmul, rank_t1, rank_t2, rank_t3, rank_t4, rank_t5]
  rw [check_true (by decide)]
  simp only [ok_bind, pure_eq_ok, if_true, if_false, OfNat.ofNat_ne_one, matmulCore_mp_p1, unsqueeze_t1_n1, select_t2_n1_0 (h := Nat.one_pos)]

@[tens] theorem matmulCore_nmp_p1 (n m p : Nat) (f : Nat → Nat → Nat → α) (g : Nat → Nat → α) :
    matmulCore (t3 n m p f) (t2 p 1 g) =
      .ok (t3 n m 1 fun i j k => ∑ w ∈ Finset.range p, f i j w * g w k) := by
  tev_mm
  rw [check_true trivial]
  refine congrArg Except.ok (ext3 rfl rfl ?_)
  intro i j k hi hj hk
  tev_mmget
  refine Finset.sum_congr rfl fun w hw => ?_
  rw [Finset.mem_range] at hw
  tev_mmel

@[tens] theorem matmul_nmp_p (n m p : Nat) (f : Nat → Nat → Nat → α) (g : Nat → α) :
    matmul (t3 n m p f) (t1 p g) =
      .ok (t2 n m fun i j => ∑ w ∈ Finset.range p, f i j w * g w) := by
  simp only [matmul, rank_t1, rank_t2, rank_t3, rank_t4, rank_t5]
  rw [check_true (by decide)]
  simp only [ok_bind, pure_eq_ok, if_true, if_false, OfNat.ofNat_ne_one, matmulCore_nmp_p1, unsqueeze_t1_n1, select_t3_n1_0 (h := Nat.one_pos)]

@[tens] theorem matmulCore_1p_p1 (p : Nat) (f : Nat → Nat → α) (g : Nat → Nat → α) :
    matmulCore (t2 1 p f) (t2 p 1 g) =
      .ok (t2 1 1 fun i j => ∑ w ∈ Finset.range p, f i w * g w j) := by
  tev_mm
  rw [check_true trivial]
  refine congrArg Except.ok (ext2 rfl rfl ?_)
  intro i j hi hj
  tev_mmget
  refine Finset.sum_congr rfl fun w hw => ?_
  rw [Finset.mem_range] at hw
  tev_mmel

@[tens] theorem matmul_p_p (p : Nat) (f : Nat → α) (g : Nat → α) :
    matmul (t1 p f) (t1 p g) =
      .ok (t0 (∑ w ∈ Finset.range p, f w * g w)) := by
  simp only [matmul, rank_t1, rank_t2, rank_t3, rank_t4, rank_t5]
  rw [check_true (by decide)]
  simp only [ok_bind, pure_eq_ok, if_true, if_false, OfNat.ofNat_ne_one, matmulCore_1p_p1, unsqueeze_t1_0, select_t2_n2_0 (h := Nat.one_pos), unsqueeze_t1_n1, select_t1_n1_0 (h := Nat.one_pos)]

@[tens] theorem matmulCore_1m_mp (m p : Nat) (f : Nat → Nat → α) (g : Nat → Nat → α) :
    matmulCore (t2 1 m f) (t2 m p g) =
      .ok (t2 1 p fun i j => ∑ w ∈ Finset.range m, f i w * g w j) := by
  tev_mm
  rw [check_true trivial]
  refine congrArg Except.ok (ext2 rfl rfl ?_)
  intro i j hi hj
  tev_mmget
  refine Finset.sum_congr rfl fun w hw => ?_
  rw [Finset.mem_range] at hw
  tev_mmel

@[tens] theorem matmul_m_mp (m p : Nat) (f : Nat → α) (g : Nat → Nat → α) :
    matmul (t1 m f) (t2 m p g) =
      .ok (t1 p fun i => ∑ w ∈ Finset.range m, f w * g w i) := by
  simp only [matmul, rank_t1, rank_t2, rank_t3, rank_t4, rank_t5]
  rw [check_true (by decide)]
  simp only [ok_bind, pure_eq_ok, if_true, if_false, OfNat.ofNat_ne_one, matmulCore_1m_mp, unsqueeze_t1_0, select_t2_n2_0 (h := Nat.one_pos)]

@[tens] theorem matmulCore_1mp_npq (m p n q : Nat) (f : Nat → Nat → Nat → α) (g : Nat → Nat → Nat → α) :
    matmulCore (t3 1 m p f) (t3 n p q g) =
      .ok (t3 n m q fun i j k => ∑ w ∈ Finset.range p, f 0 j w * g i w k) := by
  tev_mm
  rw [check_true trivial]
  refine congrArg Except.ok (ext3 rfl rfl ?_)
  intro i j k hi hj hk
  tev_mmget
  refine Finset.sum_congr rfl fun w hw => ?_
  rw [Finset.mem_range] at hw
  tev_mmel

@[tens] theorem matmul_1mp_npq (m p n q : Nat) (f : Nat → Nat → Nat → α) (g : Nat → Nat → Nat → α) :
    matmul (t3 1 m p f) (t3 n p q g) =
      .ok (t3 n m q fun i j k => ∑ w ∈ Finset.range p, f 0 j w * g i w k) := by
  simp only [matmul, rank_t1, rank_t2, rank_t3, rank_t4, rank_t5]
  rw [check_true (by decide)]
  simp only [ok_bind, pure_eq_ok, if_true, if_false, OfNat.ofNat_ne_one, matmulCore_1mp_npq]

@[tens] theorem matmulCore_nmp_1pq (n m p q : Nat) (f : Nat → Nat → Nat → α) (g : Nat → Nat → Nat → α) :
    matmulCore (t3 n m p f) (t3 1 p q g) =
      .ok (t3 n m q fun i j k => ∑ w ∈ Finset.range p, f i j w * g 0 w k) := by
  tev_mm
  rw [check_true trivial]
  refine congrArg Except.ok (ext3 rfl rfl ?_)
  intro i j k hi hj hk
  tev_mmget
  refine Finset.sum_congr rfl fun w hw => ?_
  rw [Finset.mem_range] at hw
  tev_mmel

@[tens] theorem matmul_nmp_1pq (n m p q : Nat) (f : Nat → Nat → Nat → α) (g : Nat → Nat → Nat → α) :
    matmul (t3 n m p f) (t3 1 p q g) =
      .ok (t3 n m q fun i j k => ∑ w ∈ Finset.range p, f i j w * g 0 w k) := by
  simp only [matmul, rank_t1, rank_t2, rank_t3, rank_t4, rank_t5]
  rw [check_true (by decide)]
  simp only [ok_bind, pure_eq_ok, if_true, if_false, OfNat.ofNat_ne_one, matmulCore_nmp_1pq]

@[tens] theorem matmulCore_nmpq_nmqr (n m p q r : Nat) (f : Nat → Nat → Nat → Nat → α) (g : Nat → Nat → Nat → Nat → α) :
    matmulCore (t4 n m p q f) (t4 n m q r g) =
      .ok (t4 n m p r fun i j k o => ∑ w ∈ Finset.range q, f i j k w * g i j w o) := by
  tev_mm
  rw [check_true trivial]
  refine congrArg Except.ok (ext4 rfl rfl ?_)
  intro i j k o hi hj hk ho
  tev_mmget
  refine Finset.sum_congr rfl fun w hw => ?_
  rw [Finset.mem_range] at hw
  tev_mmel

@[tens] theorem matmul_nmpq_nmqr (n m p q r : Nat) (f : Nat → Nat → Nat → Nat → α) (g : Nat → Nat → Nat → Nat → α) :
    matmul (t4 n m p q f) (t4 n m q r g) =
      .ok (t4 n m p r fun i j k o => ∑ w ∈ Finset.range q, f i j k w * g i j w o) := by
  simp only [matmul, rank_t1, rank_t2, rank_t3, rank_t4, rank_t5]
  rw [check_true (by decide)]
  simp only [ok_bind, pure_eq_ok, if_true, if_false, OfNat.ofNat_ne_one, matmulCore_nmpq_nmqr]

@[tens] theorem matmulCore_mpq_nmqr (m p q n r : Nat) (f : Nat → Nat → Nat → α) (g : Nat → Nat → Nat → Nat → α) :
    matmulCore (t3 m p q f) (t4 n m q r g) =
      .ok (t4 n m p r fun i j k o => ∑ w ∈ Finset.range q, f j k w * g i j w o) := by
  tev_mm
  rw [check_true trivial]
  refine congrArg Except.ok (ext4 rfl rfl ?_)
  intro i j k o hi hj hk ho
  tev_mmget
  refine Finset.sum_congr rfl fun w hw => ?_
  rw [Finset.mem_range] at hw
  tev_mmel

@[tens] theorem matmul_mpq_nmqr (m p q n r : Nat) (f : Nat → Nat → Nat → α) (g : Nat → Nat → Nat → Nat → α) :
    matmul (t3 m p q f) (t4 n m q r g) =
      .ok (t4 n m p r fun i j k o => ∑ w ∈ Finset.range q, f j k w * g i j w o) := by
  simp only [matmul, rank_t1, rank_t2, rank_t3, rank_t4, rank_t5]
  rw [check_true (by decide)]
  simp only [ok_bind, pure_eq_ok, if_true, if_false, OfNat.ofNat_ne_one, matmulCore_mpq_nmqr]

@[tens] theorem matmulCore_nmpq_qr (n m p q r : Nat) (f : Nat → Nat → Nat → Nat → α) (g : Nat → Nat → α) :
    matmulCore (t4 n m p q f) (t2 q r g) =
      .ok (t4 n m p r fun i j k o => ∑ w ∈ Finset.range q, f i j k w * g w o) := by
  tev_mm
  rw [check_true trivial]
  refine congrArg Except.ok (ext4 rfl rfl ?_)
  intro i j k o hi hj hk ho
  tev_mmget
  refine Finset.sum_congr rfl fun w hw => ?_
  rw [Finset.mem_range] at hw
  tev_mmel

@[tens] theorem matmul_nmpq_qr (n m p q r : Nat) (f : Nat → Nat → Nat → Nat → α) (g : Nat → Nat → α) :
    matmul (t4 n m p q f) (t2 q r g) =
      .ok (t4 n m p r fun i j k o => ∑ w ∈ Finset.range q, f i j k w * g w o) := by
  simp only [matmul, rank_t1, rank_t2, rank_t3, rank_t4, rank_t5]
  rw [check_true (by decide)]
  simp only [ok_bind, pure_eq_ok, if_true, if_false, OfNat.ofNat_ne_one, matmulCore_nmpq_qr]

@[tens] theorem matmulCore_1mpq_nmqr (m p q n r : Nat) (f : Nat → Nat → Nat → Nat → α) (g : Nat → Nat → Nat → Nat → α) :
    matmulCore (t4 1 m p q f) (t4 n m q r g) =
      .ok (t4 n m p r fun i j k o => ∑ w ∈ Finset.range q, f 0 j k w * g i j w o) := by
  tev_mm
  rw [check_true trivial]
  refine congrArg Except.ok (ext4 rfl rfl ?_)
  intro i j k o hi hj hk ho
  tev_mmget
  refine Finset.sum_congr rfl fun w hw => ?_
  rw [Finset.mem_range] at hw
  tev_mmel

@[tens] theorem matmul_1mpq_nmqr (m p q n r : Nat) (f : Nat → Nat → Nat → Nat → α) (g : Nat → Nat → Nat → Nat → α) :
    matmul (t4 1 m p q f) (t4 n m q r g) =
      .ok (t4 n m p r fun i j k o => ∑ w ∈ Finset.range q, f 0 j k w * g i j w o) := by
  simp only [matmul, rank_t1, rank_t2, rank_t3, rank_t4, rank_t5]
  rw [check_true (by decide)]
  simp only [ok_bind, pure_eq_ok, if_true, if_false, OfNat.ofNat_ne_one, matmulCore_1mpq_nmqr]

@[tens] theorem matmulCore_1m_nmp (m n p : Nat) (f : Nat → Nat → α) (g : Nat → Nat → Nat → α) :
    matmulCore (t2 1 m f) (t3 n m p g) =
      .ok (t3 n 1 p fun i j k => ∑ w ∈ Finset.range m, f j w * g i w k) := by
  tev_mm
  rw [check_true trivial]
  refine congrArg Except.ok (ext3 rfl rfl ?_)
  intro i j k hi hj hk
  tev_mmget
  refine Finset.sum_congr rfl fun w hw => ?_
  rw [Finset.mem_range] at hw
  tev_mmel

@[tens] theorem matmul_m_nmp (m n p : Nat) (f : Nat → α) (g : Nat → Nat → Nat → α) :
    matmul (t1 m f) (t3 n m p g) =
      .ok (t2 n p fun i j => ∑ w ∈ Finset.range m, f w * g i w j) := by
  simp only [matmul, rank_t1, rank_t2, rank_t3, rank_t4, rank_t5]
  rw [check_true (by decide)]
  simp only [ok_bind, pure_eq_ok, if_true, if_false, OfNat.ofNat_ne_one, matmulCore_1m_nmp, unsqueeze_t1_0, select_t3_n2_0 (h := Nat.one_pos)]

@[tens] theorem matmulCore_nmpq_q1 (n m p q : Nat) (f : Nat → Nat → Nat → Nat → α) (g : Nat → Nat → α) :
    matmulCore (t4 n m p q f) (t2 q 1 g) =
      .ok (t4 n m p 1 fun i j k o => ∑ w ∈ Finset.range q, f i j k w * g w o) := by
  tev_mm
  rw [check_true trivial]
  refine congrArg Except.ok (ext4 rfl rfl ?_)
  intro i j k o hi hj hk ho
  tev_mmget
  refine Finset.sum_congr rfl fun w hw => ?_
  rw [Finset.mem_range] at hw
  tev_mmel

@[tens] theorem matmul_nmpq_q (n m p q : Nat) (f : Nat → Nat → Nat → Nat → α) (g : Nat → α) :
    matmul (t4 n m p q f) (t1 q g) =
      .ok (t3 n m p fun i j k => ∑ w ∈ Finset.range q, f i j k w * g w) := by
  simp only [matmul, rank_t1, rank_t2, rank_t3, rank_t4, rank_t5]
  rw [check_true (by decide)]
  simp only [ok_bind, pure_eq_ok, if_true, if_false, OfNat.ofNat_ne_one, matmulCore_nmpq_q1, unsqueeze_t1_n1, select_t4_n1_0 (h := Nat.one_pos)]

@[tens] theorem matmulCore_1npq_m1qr (n p q m r : Nat) (f : Nat → Nat → Nat → Nat → α) (g : Nat → Nat → Nat → Nat → α) :
    matmulCore (t4 1 n p q f) (t4 m 1 q r g) =
      .ok (t4 m n p r fun i j k o => ∑ w ∈ Finset.range q, f 0 j k w * g i 0 w o) := by
  tev_mm
  rw [check_true trivial]
  refine congrArg Except.ok (ext4 rfl rfl ?_)
  intro i j k o hi hj hk ho
  tev_mmget
  refine Finset.sum_congr rfl fun w hw => ?_
  rw [Finset.mem_range] at hw
  tev_mmel

@[tens] theorem matmul_1npq_m1qr (n p q m r : Nat) (f : Nat → Nat → Nat → Nat → α) (g : Nat → Nat → Nat → Nat → α) :
    matmul (t4 1 n p q f) (t4 m 1 q r g) =
      .ok (t4 m n p r fun i j k o => ∑ w ∈ Finset.range q, f 0 j k w * g i 0 w o) := by
  simp only [matmul, rank_t1, rank_t2, rank_t3, rank_t4, rank_t5]
  rw [check_true (by decide)]
  simp only [ok_bind, pure_eq_ok, if_true, if_false, OfNat.ofNat_ne_one, matmulCore_1npq_m1qr]

@[tens] theorem matmulCore_n1pqr_nm1rs (n p q r m s : Nat) (f : Nat → Nat → Nat → Nat → Nat → α) (g : Nat → Nat → Nat → Nat → Nat → α) :
    matmulCore (t5 n 1 p q r f) (t5 n m 1 r s g) =
      .ok (t5 n m p q s fun i j k o u => ∑ w ∈ Finset.range r, f i 0 k o w * g i j 0 w u) := by
  tev_mm
  rw [check_true trivial]
  refine congrArg Except.ok (ext5 rfl rfl ?_)
  intro i j k o u hi hj hk ho hu
  tev_mmget
  refine Finset.sum_congr rfl fun w hw => ?_
  rw [Finset.mem_range] at hw
  tev_mmel

@[tens] theorem matmul_n1pqr_nm1rs (n p q r m s : Nat) (f : Nat → Nat → Nat → Nat → Nat → α) (g : Nat → Nat → Nat → Nat → Nat → α) :
    matmul (t5 n 1 p q r f) (t5 n m 1 r s g) =
      .ok (t5 n m p q s fun i j k o u => ∑ w ∈ Finset.range r, f i 0 k o w * g i j 0 w u) := by
  simp only [matmul, rank_t1, rank_t2, rank_t3, rank_t4, rank_t5]
  rw [check_true (by decide)]
  simp only [ok_bind, pure_eq_ok, if_true, if_false, OfNat.ofNat_ne_one, matmulCore_n1pqr_nm1rs]

@[tens] theorem matmulCore_nmpq_mqr (n m p q r : Nat) (f : Nat → Nat → Nat → Nat → α) (g : Nat → Nat → Nat → α) :
    matmulCore (t4 n m p q f) (t3 m q r g) =
      .ok (t4 n m p r fun i j k o => ∑ w ∈ Finset.range q, f i j k w * g j w o) := by
  tev_mm
  rw [check_true trivial]
  refine congrArg Except.ok (ext4 rfl rfl ?_)
  intro i j k o hi hj hk ho
  tev_mmget
  refine Finset.sum_congr rfl fun w hw => ?_
  rw [Finset.mem_range] at hw
  tev_mmel

@[tens] theorem matmul_nmpq_mqr (n m p q r : Nat) (f : Nat → Nat → Nat → Nat → α) (g : Nat → Nat → Nat → α) :
    matmul (t4 n m p q f) (t3 m q r g) =
      .ok (t4 n m p r fun i j k o => ∑ w ∈ Finset.range q, f i j k w * g j w o) := by
  simp only [matmul, rank_t1, rank_t2, rank_t3, rank_t4, rank_t5]
  rw [check_true (by decide)]
  simp only [ok_bind, pure_eq_ok, if_true, if_false, OfNat.ofNat_ne_one, matmulCore_nmpq_mqr]

@[tens] theorem cumprod_t1_n1 (n : Nat) (f : Nat → α) :
    cumprod (t1 n f) (-1) =
      .ok (t1 n fun i => ∏ w ∈ Finset.range (i + 1), f w) := by
  simp only [cumprod]
  tev_list
  refine congrArg Except.ok (ext1 rfl rfl ?_)
  intro i hi
  tev_mmget
  refine Finset.prod_congr rfl fun w hw => ?_
  rw [Finset.mem_range] at hw
  tev_core

@[tens] theorem sum_t1_n1 (n : Nat) (f : Nat → α) :
    sum (t1 n f) (-1) =
      .ok (t0 (∑ w ∈ Finset.range n, f w)) := by
  simp only [sum]
  tev_list
  refine congrArg Except.ok (ext0 rfl rfl ?_)
  tev_mmget
  refine Finset.sum_congr rfl fun w hw => ?_
  rw [Finset.mem_range] at hw
  tev_core

@[tens] theorem cumprod_t2_n1 (n m : Nat) (f : Nat → Nat → α) :
    cumprod (t2 n m f) (-1) =
      .ok (t2 n m fun i j => ∏ w ∈ Finset.range (j + 1), f i w) := by
  simp only [cumprod]
  tev_list
  refine congrArg Except.ok (ext2 rfl rfl ?_)
  intro i j hi hj
  tev_mmget
  refine Finset.prod_congr rfl fun w hw => ?_
  rw [Finset.mem_range] at hw
  tev_core

@[tens] theorem sum_t2_n1 (n m : Nat) (f : Nat → Nat → α) :
    sum (t2 n m f) (-1) =
      .ok (t1 n fun i => ∑ w ∈ Finset.range m, f i w) := by
  simp only [sum]
  tev_list
  refine congrArg Except.ok (ext1 rfl rfl ?_)
  intro i hi
  tev_mmget
  refine Finset.sum_congr rfl fun w hw => ?_
  rw [Finset.mem_range] at hw
  tev_core

@[tens] theorem cumprod_t3_n1 (n m p : Nat) (f : Nat → Nat → Nat → α) :
    cumprod (t3 n m p f) (-1) =
      .ok (t3 n m p fun i j k => ∏ w ∈ Finset.range (k + 1), f i j w) := by
  simp only [cumprod]
  tev_list
  refine congrArg Except.ok (ext3 rfl rfl ?_)
  intro i j k hi hj hk
  tev_mmget
  refine Finset.prod_congr rfl fun w hw => ?_
  rw [Finset.mem_range] at hw
  tev_core

@[tens] theorem sum_t3_n1 (n m p : Nat) (f : Nat → Nat → Nat → α) :
    sum (t3 n m p f) (-1) =
      .ok (t2 n m fun i j => ∑ w ∈ Finset.range p, f i j w) := by
  simp only [sum]
  tev_list
  refine congrArg Except.ok (ext2 rfl rfl ?_)
  intro i j hi hj
  tev_mmget
  refine Finset.sum_congr rfl fun w hw => ?_
  rw [Finset.mem_range] at hw
  tev_core

@[tens] theorem vecdot_n_n (n : Nat) [StarRing α] (f : Nat → α) (g : Nat → α) :
    vecdot (t1 n f) (t1 n g) =
      .ok (t0 (∑ w ∈ Finset.range n, star (f w) * g w)) := by
  tev_vd
  rw [check_true (by decide)]
  simp only [ok_bind, pure_eq_ok]
  refine congrArg Except.ok (ext0 rfl rfl ?_)
  tev_mmget
  refine Finset.sum_congr rfl fun w hw => ?_
  rw [Finset.mem_range] at hw
  tev_mmel

@[tens] theorem vecdot_nm_nm (n m : Nat) [StarRing α] (f : Nat → Nat → α) (g : Nat → Nat → α) :
    vecdot (t2 n m f) (t2 n m g) =
      .ok (t1 n fun i => ∑ w ∈ Finset.range m, star (f i w) * g i w) := by
  tev_vd
  rw [check_true (by decide)]
  simp only [ok_bind, pure_eq_ok]
  refine congrArg Except.ok (ext1 rfl rfl ?_)
  intro i hi
  tev_mmget
  refine Finset.sum_congr rfl fun w hw => ?_
  rw [Finset.mem_range] at hw
  tev_mmel

@[tens] theorem vecdot_nmp_nmp (n m p : Nat) [StarRing α] (f : Nat → Nat → Nat → α) (g : Nat → Nat → Nat → α) :
    vecdot (t3 n m p f) (t3 n m p g) =
      .ok (t2 n m fun i j => ∑ w ∈ Finset.range p, star (f i j w) * g i j w) := by
  tev_vd
  rw [check_true (by decide)]
  simp only [ok_bind, pure_eq_ok]
  refine congrArg Except.ok (ext2 rfl rfl ?_)
  intro i j hi hj
  tev_mmget
  refine Finset.sum_congr rfl fun w hw => ?_
  rw [Finset.mem_range] at hw
  tev_mmel

@[tens] theorem vecdot_nmp_n1p (n m p : Nat) [StarRing α] (f : Nat → Nat → Nat → α) (g : Nat → Nat → Nat → α) :
    vecdot (t3 n m p f) (t3 n 1 p g) =
      .ok (t2 n m fun i j => ∑ w ∈ Finset.range p, star (f i j w) * g i 0 w) := by
  tev_vd
  rw [check_true (by decide)]
  simp only [ok_bind, pure_eq_ok]
  refine congrArg Except.ok (ext2 rfl rfl ?_)
  intro i j hi hj
  tev_mmget
  refine Finset.sum_congr rfl fun w hw => ?_
  rw [Finset.mem_range] at hw
  tev_mmel

@[tens] theorem vecdot_nmp_1mp (n m p : Nat) [StarRing α] (f : Nat → Nat → Nat → α) (g : Nat → Nat → Nat → α) :
    vecdot (t3 n m p f) (t3 1 m p g) =
      .ok (t2 n m fun i j => ∑ w ∈ Finset.range p, star (f i j w) * g 0 j w) := by
  tev_vd
  rw [check_true (by decide)]
  simp only [ok_bind, pure_eq_ok]
  refine congrArg Except.ok (ext2 rfl rfl ?_)
  intro i j hi hj
  tev_mmget
  refine Finset.sum_congr rfl fun w hw => ?_
  rw [Finset.mem_range] at hw
  tev_mmel

@[tens] theorem vecdot_nmp_mp (n m p : Nat) [StarRing α] (f : Nat → Nat → Nat → α) (g : Nat → Nat → α) :
    vecdot (t3 n m p f) (t2 m p g) =
      .ok (t2 n m fun i j => ∑ w ∈ Finset.range p, star (f i j w) * g j w) := by
  tev_vd
  rw [check_true (by decide)]
  simp only [ok_bind, pure_eq_ok]
  refine congrArg Except.ok (ext2 rfl rfl ?_)
  intro i j hi hj
  tev_mmget
  refine Finset.sum_congr rfl fun w hw => ?_
  rw [Finset.mem_range] at hw
  tev_mmel

@[tens] theorem vecdot_nm_m (n m : Nat) [StarRing α] (f : Nat → Nat → α) (g : Nat → α) :
    vecdot (t2 n m f) (t1 m g) =
      .ok (t1 n fun i => ∑ w ∈ Finset.range m, star (f i w) * g w) := by
  tev_vd
  rw [check_true (by decide)]
  simp only [ok_bind, pure_eq_ok]
  refine congrArg Except.ok (ext1 rfl rfl ?_)
  intro i hi
  tev_mmget
  refine Finset.sum_congr rfl fun w hw => ?_
  rw [Finset.mem_range] at hw
  tev_mmel

@[tens] theorem vecdot_nmp_p (n m p : Nat) [StarRing α] (f : Nat → Nat → Nat → α) (g : Nat → α) :
    vecdot (t3 n m p f) (t1 p g) =
      .ok (t2 n m fun i j => ∑ w ∈ Finset.range p, star (f i j w) * g w) := by
  tev_vd
  rw [check_true (by decide)]
  simp only [ok_bind, pure_eq_ok]
  refine congrArg Except.ok (ext2 rfl rfl ?_)
  intro i j hi hj
  tev_mmget
  refine Finset.sum_congr rfl fun w hw => ?_
  rw [Finset.mem_range] at hw
  tev_mmel

@[tens] theorem vecdot_nmp_11p (n m p : Nat) [StarRing α] (f : Nat → Nat → Nat → α) (g : Nat → Nat → Nat → α) :
    vecdot (t3 n m p f) (t3 1 1 p g) =
      .ok (t2 n m fun i j => ∑ w ∈ Finset.range p, star (f i j w) * g 0 0 w) := by
  tev_vd
  rw [check_true (by decide)]
  simp only [ok_bind, pure_eq_ok]
  refine congrArg Except.ok (ext2 rfl rfl ?_)
  intro i j hi hj
  tev_mmget
  refine Finset.sum_congr rfl fun w hw => ?_
  rw [Finset.mem_range] at hw
  tev_mmel

@[tens] theorem vecdot_mp_nmp (m p n : Nat) [StarRing α] (f : Nat → Nat → α) (g : Nat → Nat → Nat → α) :
    vecdot (t2 m p f) (t3 n m p g) =
      .ok (t2 n m fun i j => ∑ w ∈ Finset.range p, star (f j w) * g i j w) := by
  tev_vd
  rw [check_true (by decide)]
  simp only [ok_bind, pure_eq_ok]
  refine congrArg Except.ok (ext2 rfl rfl ?_)
  intro i j hi hj
  tev_mmget
  refine Finset.sum_congr rfl fun w hw => ?_
  rw [Finset.mem_range] at hw
  tev_mmel

@[tens] theorem vecdot_n1p_nmp (n p m : Nat) [StarRing α] (f : Nat → Nat → Nat → α) (g : Nat → Nat → Nat → α) :
    vecdot (t3 n 1 p f) (t3 n m p g) =
      .ok (t2 n m fun i j => ∑ w ∈ Finset.range p, star (f i 0 w) * g i j w) := by
  tev_vd
  rw [check_true (by decide)]
  simp only [ok_bind, pure_eq_ok]
  refine congrArg Except.ok (ext2 rfl rfl ?_)
  intro i j hi hj
  tev_mmget
  refine Finset.sum_congr rfl fun w hw => ?_
  rw [Finset.mem_range] at hw
  tev_mmel

@[tens] theorem vecdot_n1pq_nm1q (n p q m : Nat) [StarRing α] (f : Nat → Nat → Nat → Nat → α) (g : Nat → Nat → Nat → Nat → α) :
    vecdot (t4 n 1 p q f) (t4 n m 1 q g) =
      .ok (t3 n m p fun i j k => ∑ w ∈ Finset.range q, star (f i 0 k w) * g i j 0 w) := by
  tev_vd
  rw [check_true (by decide)]
  simp only [ok_bind, pure_eq_ok]
  refine congrArg Except.ok (ext3 rfl rfl ?_)
  intro i j k hi hj hk
  tev_mmget
  refine Finset.sum_congr rfl fun w hw => ?_
  rw [Finset.mem_range] at hw
  tev_mmel

@[tens] theorem vecdot_mpq_nm1q (m p q n : Nat) [StarRing α] (f : Nat → Nat → Nat → α) (g : Nat → Nat → Nat → Nat → α) :
    vecdot (t3 m p q f) (t4 n m 1 q g) =
      .ok (t3 n m p fun i j k => ∑ w ∈ Finset.range q, star (f j k w) * g i j 0 w) := by
  tev_vd
  rw [check_true (by decide)]
  simp only [ok_bind, pure_eq_ok]
  refine congrArg Except.ok (ext3 rfl rfl ?_)
  intro i j k hi hj hk
  tev_mmget
  refine Finset.sum_congr rfl fun w hw => ?_
  rw [Finset.mem_range] at hw
  tev_mmel

@[tens] theorem vecdot_nmpq_nm1q (n m p q : Nat) [StarRing α] (f : Nat → Nat → Nat → Nat → α) (g : Nat → Nat → Nat → Nat → α) :
    vecdot (t4 n m p q f) (t4 n m 1 q g) =
      .ok (t3 n m p fun i j k => ∑ w ∈ Finset.range q, star (f i j k w) * g i j 0 w) := by
  tev_vd
  rw [check_true (by decide)]
  simp only [ok_bind, pure_eq_ok]
  refine congrArg Except.ok (ext3 rfl rfl ?_)
  intro i j k hi hj hk
  tev_mmget
  refine Finset.sum_congr rfl fun w hw => ?_
  rw [Finset.mem_range] at hw
  tev_mmel

end Tensor
end Torch
