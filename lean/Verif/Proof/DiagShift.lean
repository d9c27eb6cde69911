import Verif.Model.LpvFiltering
import Verif.Torch.Eval

/-! # `diag_shift` -/

namespace Torch.Tensor
variable {α : Type} [Zero α]

theorem padDim_t2_n1_both (n m l r : Nat) (f : Nat → Nat → α) (v : α) :
    padDim (t2 n m f) (-1) (l : Int) (r : Int) v =
      .ok (t2 n (l + m + r) fun i j => if l ≤ j ∧ j < l + m then f i (j - l) else v) := by
  tev_list
  rw [check_true (by omega)]
  refine congrArg Except.ok (ext2 (by simp; omega) rfl ?_)
  intro i j hi hj
  tev_pad
  split_ifs <;> first | tev_core | omega

theorem padDim_t3_n1_both (n m p l r : Nat) (f : Nat → Nat → Nat → α) (v : α) :
    padDim (t3 n m p f) (-1) (l : Int) (r : Int) v =
      .ok (t3 n m (l + p + r) fun i j k => if l ≤ k ∧ k < l + p then f i j (k - l) else v) := by
  tev_list
  rw [check_true (by omega)]
  refine congrArg Except.ok (ext3 (by simp; omega) rfl ?_)
  intro i j k hi hj hk
  tev_pad
  split_ifs <;> first | tev_core | omega

end Torch.Tensor

namespace Phil.Lpv
open Torch Torch.Tensor
variable {α : Type} [CommRing α]

/-- Column `m` of `c` (with `T` rows) moved down by `m + off`. -/
def shifted (T off : Nat) (c : Nat → Nat → α) (t m : Nat) : α :=
  if m + off ≤ t ∧ t < T + m + off then c (t - m - off) m else 0

/-- The index computation behind `diag_shift`. -/
theorem shifted_index {T M off L : Nat} (c : Nat → Nat → α) (hL : L = off + T + M) {m t : Nat} (hm : m < M)
    (ht : t < L - 1) :
    (if off ≤ (m * (L - 1) + t) % L ∧ (m * (L - 1) + t) % L < off + T then
        c ((m * (L - 1) + t) % L - off) ((m * (L - 1) + t) / L) else 0) = shifted T off c t m := by
  obtain ⟨l, rfl⟩ : ∃ l, L = l + 1 := ⟨L - 1, by omega⟩
  rw [Nat.add_sub_cancel] at ht ⊢
  unfold shifted
  by_cases h : m ≤ t
  · have e : m * l + t = (t - m) + (l + 1) * m := by
      rw [Nat.add_mul, one_mul, Nat.mul_comm l m]; omega
    have h1 : (m * l + t) % (l + 1) = t - m := by rw [e, Nat.add_mul_mod_self_left, Nat.mod_eq_of_lt (by omega)]
    have h2 : (m * l + t) / (l + 1) = m := by
      rw [e, Nat.add_mul_div_left _ _ (by omega), Nat.div_eq_of_lt (by omega), zero_add]
    rw [h1, h2]
    by_cases h3 : m + off ≤ t ∧ t < T + m + off
    · rw [if_pos h3, if_pos (by omega)]
    · rw [if_neg h3, if_neg (by omega)]
  · obtain ⟨q, rfl⟩ : ∃ q, m = q + 1 := ⟨m - 1, by omega⟩
    have e : (q + 1) * l + t = (l + t - q) + (l + 1) * q := by
      rw [Nat.add_mul, one_mul, Nat.add_mul, one_mul, Nat.mul_comm l q]; omega
    have h1 : ((q + 1) * l + t) % (l + 1) = l + t - q := by
      rw [e, Nat.add_mul_mod_self_left, Nat.mod_eq_of_lt (by omega)]
    rw [h1, if_neg (by omega), if_neg (by omega)]

variable [StarRing α]

omit [StarRing α] in
/-- `diag_shift` of a batch, before the end is discarded. -/
theorem diagShift_t3 {B T M : Nat} (c : Nat → Nat → Nat → α) (off : Nat) (e : Bool) :
    diagShift (t3 B T M c) off e =
      .ok (t3 B (if e then pyStop (T + M + off - 1) (some (-((M : Int) - 1 + off))) else T + M + off - 1) M
        fun b t m => shifted T off (c b) t m) := by
  unfold diagShift
  refine check_step (by simp) ?_
  simp only [size_t3_n2, size_t3_n1, mT]
  refine bind_step (transpose_t3_n2_n1 _ _ _ _) (bind_step (padDim_t3_n1_both _ _ _ _ _ _ _) ?_)
  refine bind_step (flatten_t3_n2_n1 _ _ _ _) ?_
  rw [show M * (off + T + M) = (T + M + off) * M by ring]
  refine bind_step (unflatten_t2_n1_c_c _ _ _ _) (bind_step (slice_t3_n2 _ _ _ _ _ _) ?_)
  rw [pyStop_neg1, pyStart_none, Nat.sub_zero]
  refine bind_step (flatten_t3_n2_n1 _ _ _ _) ?_
  rw [show (T + M + off - 1) * M = M * (T + M + off - 1) from Nat.mul_comm _ _]
  refine bind_step (unflatten_t2_n1_c_c _ _ _ _) ?_
  have key : (t3 B M (T + M + off - 1) fun i j k =>
      if off ≤ ((j * (T + M + off - 1) + k) / M * M + (j * (T + M + off - 1) + k) % M) % (off + T + M) ∧
          ((j * (T + M + off - 1) + k) / M * M + (j * (T + M + off - 1) + k) % M) % (off + T + M) < off + T then
        c i (((j * (T + M + off - 1) + k) / M * M + (j * (T + M + off - 1) + k) % M) % (off + T + M) - off)
          (((j * (T + M + off - 1) + k) / M * M + (j * (T + M + off - 1) + k) % M) / (off + T + M))
      else (0 : α)) = t3 B M (T + M + off - 1) fun i j k => shifted T off (c i) k j := by
    refine t3_congr rfl rfl rfl fun i j k hi hj hk => ?_
    have h : T + M + off = off + T + M := by omega
    rw [Nat.div_add_mod', h]
    exact shifted_index (c i) rfl hj (by omega)
  simp only [Nat.add_zero]
  rw [key]
  cases e with
  | false =>
    simp only [Bool.false_eq_true, if_false, pure_eq_ok]
    exact bind_step rfl (transpose_t3_n2_n1 _ _ _ _)
  | true =>
    simp only [if_true]
    refine bind_step (slice_t3_n1 _ _ _ _ _ _) ?_
    rw [pyStart_none, Nat.sub_zero]
    exact transpose_t3_n2_n1 _ _ _ _

omit [StarRing α] in
/-- `diag_shift` without batch axis. -/
theorem diagShift_t2 {T M : Nat} (c : Nat → Nat → α) (off : Nat) (e : Bool) :
    diagShift (t2 T M c) off e =
      .ok (t2 (if e then pyStop (T + M + off - 1) (some (-((M : Int) - 1 + off))) else T + M + off - 1) M
        fun t m => shifted T off c t m) := by
  unfold diagShift
  refine check_step (by simp) ?_
  simp only [size_t2_n2, size_t2_n1, mT]
  refine bind_step (transpose_t2_n2_n1 _ _ _) (bind_step (padDim_t2_n1_both _ _ _ _ _ _) ?_)
  refine bind_step (flatten_t2_n2_n1 _ _ _) ?_
  rw [show M * (off + T + M) = (T + M + off) * M by ring]
  refine bind_step (unflatten_t1_n1_c_c _ _ _) (bind_step (slice_t2_n2 _ _ _ _ _) ?_)
  rw [pyStop_neg1, pyStart_none, Nat.sub_zero]
  refine bind_step (flatten_t2_n2_n1 _ _ _) ?_
  rw [show (T + M + off - 1) * M = M * (T + M + off - 1) from Nat.mul_comm _ _]
  refine bind_step (unflatten_t1_n1_c_c _ _ _) ?_
  have key : (t2 M (T + M + off - 1) fun j k =>
      if off ≤ ((j * (T + M + off - 1) + k) / M * M + (j * (T + M + off - 1) + k) % M) % (off + T + M) ∧
          ((j * (T + M + off - 1) + k) / M * M + (j * (T + M + off - 1) + k) % M) % (off + T + M) < off + T then
        c (((j * (T + M + off - 1) + k) / M * M + (j * (T + M + off - 1) + k) % M) % (off + T + M) - off)
          (((j * (T + M + off - 1) + k) / M * M + (j * (T + M + off - 1) + k) % M) / (off + T + M))
      else (0 : α)) = t2 M (T + M + off - 1) fun j k => shifted T off c k j := by
    refine t2_congr rfl rfl fun j k hj hk => ?_
    have h : T + M + off = off + T + M := by omega
    rw [Nat.div_add_mod', h]
    exact shifted_index c rfl hj (by omega)
  simp only [Nat.add_zero]
  rw [key]
  cases e with
  | false =>
    simp only [Bool.false_eq_true, if_false, pure_eq_ok]
    exact bind_step rfl (transpose_t2_n2_n1 _ _ _)
  | true =>
    simp only [if_true]
    refine bind_step (slice_t2_n1 _ _ _ _ _) ?_
    rw [pyStart_none, Nat.sub_zero]
    exact transpose_t2_n2_n1 _ _ _

theorem pyStop_discard {T M off : Nat} (hM : 0 < M) (h : 0 < M - 1 + off) :
    pyStop (T + M + off - 1) (some (-((M : Int) - 1 + off))) = T := by
  rw [show (-((M : Int) - 1 + off)) = -((M - 1 + off : Nat) : Int) by omega, pyStop_neg _ _ h]; omega

end Phil.Lpv
