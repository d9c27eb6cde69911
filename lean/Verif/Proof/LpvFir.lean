import Verif.Proof.DiagShift
import Verif.Proof.TvFilter
import Verif.Proof.LtiFiltering

/-! # `lpv.fir` -/

namespace Phil.Lpv
open Torch Torch.Tensor Spec Finset
open Phil.Lti (ok_pair conj_t2 conj_t3 conj_t4 add_eq)
variable {α : Type} [CommRing α] [StarRing α]

theorem fir_none_eq {B N K : Nat} (b : Nat → Nat → Nat → α) (x : Nat → Nat → α) (tr : Bool) (hK : 0 < K) :
    fir (t3 B N K b) (t2 B N x) none tr =
      if tr then firTransposed (t3 B N K b) (t2 B N x) none
      else firDirect (t3 B N K b) (t2 B N x) (zeros [B, K - 1]) false := by
  unfold fir
  refine check_step (by simp) (check_step (by simp) (check_step (by simp) (check_step (by simp [hK]) (check_step (by simp)
    (check_step (by simp) (check_step (by simp) ?_))))))
  simp

theorem fir_some_eq {B N M : Nat} (b : Nat → Nat → Nat → α) (x z : Nat → Nat → α) (tr : Bool) :
    fir (t3 B N (M + 1) b) (t2 B N x) (some (t2 B M z)) tr =
      if tr then firTransposed (t3 B N (M + 1) b) (t2 B N x) (some (t2 B M z))
      else firDirect (t3 B N (M + 1) b) (t2 B N x) (t2 B M z) true := by
  unfold fir
  refine check_step (by simp) (check_step (by simp) (check_step (by simp) (check_step (by simp) (check_step (by simp)
    (check_step (by simp) (check_step (by simp) ?_))))))
  simp

theorem firDirect_eq {B N M : Nat} (b : Nat → Nat → Nat → α) (x z : Nat → Nat → α) (rz : Bool) (hN : 0 < N) :
    firDirect (t3 B N (M + 1) b) (t2 B N x) (t2 B M z) rz =
      .ok (t2 B N fun i t => ∑ j ∈ range (M + 1), b i t j * withPast (z i) (x i) ((t : Int) - j),
        if rz then some (t2 B M fun i m => withPast (z i) (x i) ((N : Int) - 1 - m)) else none) := by
  unfold firDirect
  refine bind_step (flip_t2_1 _ _ _) (bind_step (cat2_t2_1 _ _ _ _ _) ?_)
  rw [size_t3_2]
  refine bind_step (unfold_t2_1 _ _ _ _ (by omega)) (bind_step (flip_t3_2 _ _ _ _) ?_)
  rw [show M + N - (M + 1) + 1 = N by omega, conj_t3]
  refine bind_step (vecdot_nmp_nmp _ _ _ _ _) ?_
  have hy : (t2 B N fun i t => ∑ w ∈ range (M + 1),
      star (star (if t + w < M then z i (M - 1 - (t + w)) else x i (t + w - M))) * b i t (M + 1 - 1 - w)) =
      t2 B N fun i t => ∑ j ∈ range (M + 1), b i t j * withPast (z i) (x i) ((t : Int) - j) := by
    refine t2_congr rfl rfl fun i t hi ht => ?_
    rw [← sum_range_reflect (fun j => b i t j * withPast (z i) (x i) ((t : Int) - j))]
    refine sum_congr rfl fun w hw => ?_
    have := mem_range.1 hw
    rw [star_star, mul_comm]
    refine congrArg₂ (· * ·) rfl ?_
    unfold withPast
    by_cases h : t + w < M
    · rw [if_pos h, if_pos (by omega)]; congr 1; omega
    · rw [if_neg h, if_neg (by omega)]; congr 1; omega
  rw [hy]
  cases rz with
  | false => rfl
  | true =>
    simp only [if_true]
    refine bind_step (select_t3_1_last _ _ _ _ hN) (bind_step (slice_t2_n1 _ _ _ _ _) (bind_step (flip_t2_1 _ _ _) ?_))
    have e : pyStart (M + 1) (some 1) = 1 := by simp [pyStart, pyBound]
    rw [pure_eq_ok, pyStop_none, e]
    refine ok_pair rfl (congrArg some (t2_congr rfl (by omega) fun i m hi hm => ?_))
    unfold withPast
    by_cases h : (N : Int) - 1 - m < 0
    · rw [if_pos h, if_pos (by omega)]; congr 1; omega
    · rw [if_neg h, if_neg (by omega)]; congr 1; omega

/-- The inner products of `lpv.fir(transpose=True)`. -/
theorem firT_sum {T M : Nat} (b : Nat → Nat → α) (x : Nat → α) (t : Nat) :
    (∑ w ∈ range (M + 1), star (shifted T 0 b t (M + 1 - 1 - w)) *
      (if M ≤ t + w ∧ t + w < M + T then x (t + w - M) else 0)) = tvConv T M (fun n j => star (b n j)) x t := by
  rw [tvConv, ← sum_range_reflect (fun j => if j ≤ t ∧ t - j < T then star (b (t - j) j) * x (t - j) else 0)]
  refine sum_congr rfl fun w hw => ?_
  have := mem_range.1 hw
  unfold shifted
  by_cases h : M - w ≤ t ∧ t - (M - w) < T
  · rw [if_pos (by omega), if_pos (by omega), if_pos (by omega)]
    refine congrArg₂ (fun p q => star (b p (M + 1 - 1 - w)) * x q) (by omega) (by omega)
  · rw [if_neg (by omega), if_neg (by omega), if_neg (by omega), mul_zero]

theorem fir_transposed_none {B N M : Nat} (b : Nat → Nat → Nat → α) (x : Nat → Nat → α) (hM : 0 < M) (hN : 0 < N) :
    fir (t3 B N (M + 1) b) (t2 B N x) none true =
      .ok (t2 B N fun i t => tvConv N M (fun n j => star (b i n j)) (x i) t, none) := by
  rw [fir_none_eq _ _ _ (by omega), if_pos rfl]
  unfold firTransposed
  have hd := diagShift_t3 (B := B) (T := N) (M := M + 1) b 0 true
  rw [if_pos rfl, pyStop_discard (by omega) (by omega)] at hd
  refine bind_step hd (bind_step (flip_t3_2 _ _ _ _) ?_)
  rw [size_t3_2, show ((M + 1 : Nat) : Int) - 1 = (M : Int) by omega, Option.isNone_none, if_pos rfl]
  refine bind_step (padDim_t2_n1_both _ _ M 0 _ _) (bind_step (unfold_t2_1 _ _ _ _ (by omega)) ?_)
  rw [show M + N + 0 - (M + 1) + 1 = N by omega]
  refine bind_step (vecdot_nmp_nmp _ _ _ _ _) ?_
  rw [pure_eq_ok]
  exact ok_pair (t2_congr rfl rfl fun i t hi ht => firT_sum (b i) (x i) t) rfl

omit [StarRing α] in
theorem split2_t2_1 (n a b : Nat) (f : Nat → Nat → α) :
    split2 (t2 n (a + b) f) a b 1 = .ok (t2 n a f, t2 n b fun i j => f i (a + j)) := by
  unfold split2
  refine bind_step (v := 1) (by simp [wrapDim]) (check_step (by simp) ?_)
  refine bind_step (slice_t2_1 _ _ _ _ _) (bind_step (slice_t2_1 _ _ _ _ _) ?_)
  rw [pure_eq_ok]
  refine ok_pair (t2_congr rfl ?_ fun i j hi hj => ?_) (t2_congr rfl ?_ fun i j hi hj => ?_)
  · rw [pyStop_nat, pyStart_zero]; omega
  · rw [pyStart_zero, Nat.add_zero]
  · rw [pyStop_none, pyStart_nat]; omega
  · rw [pyStart_nat]; congr 1; omega

theorem fir_transposed_some {B N M : Nat} (b : Nat → Nat → Nat → α) (x z : Nat → Nat → α) (hN : 0 < N) (hMN : M ≤ N) :
    fir (t3 B N (M + 1) b) (t2 B N x) (some (t2 B M z)) true =
      .ok (t2 B N fun i t => tvConv N M (fun n j => star (b i n j)) (x i) t + if t < M then z i t else 0,
        some (t2 B M fun i m => tvConv N M (fun n j => star (b i n j)) (x i) (N + m))) := by
  rw [fir_some_eq, if_pos rfl]
  unfold firTransposed
  refine bind_step (diagShift_t3 b 0 false) (bind_step (flip_t3_2 _ _ _ _) ?_)
  rw [size_t3_2, show ((M + 1 : Nat) : Int) - 1 = (M : Int) by omega, Option.isNone_some, if_neg (by simp)]
  refine bind_step (padDim_t2_n1_both _ _ M M _ _) (bind_step (unfold_t2_1 _ _ _ _ (by omega)) ?_)
  simp only [Bool.false_eq_true, if_false]
  rw [show M + N + M - (M + 1) + 1 = N + M by omega, show N + (M + 1) + 0 - 1 = N + M by omega]
  refine bind_step (vecdot_nmp_nmp _ _ _ _ _) ?_
  rw [show (t2 B (N + M) fun i j => ∑ w ∈ range (M + 1), star (shifted N 0 (b i) j (M + 1 - 1 - w)) *
      (if M ≤ j + w ∧ j + w < M + N then x i (j + w - M) else 0)) =
      t2 B (N + M) fun i t => tvConv N M (fun n j => star (b i n j)) (x i) t from
    t2_congr rfl rfl fun i t hi ht => firT_sum (b i) (x i) t]
  simp only [size_t2_1, size_t3_2, Nat.add_sub_cancel, show ((M + 1 : Nat) : Int) - 1 = (M : Int) by omega]
  refine bind_step (split2_t2_1 _ _ _ _) (bind_step (slice_t2_n1 _ _ _ _ _) ?_)
  rw [pyStop_nat, pyStart_none, Nat.sub_zero, Nat.min_eq_left hMN]
  refine bind_step (add_eq.trans (zipWith_nm_nm _ _ _ _ _)) (bind_step (slice_t2_n1 _ _ _ _ _)
    (bind_step (cat2_t2_n1 _ _ _ _ _) ?_))
  rw [pure_eq_ok, pyStop_none, pyStart_nat]
  refine ok_pair (t2_congr rfl (by omega) fun i t hi ht => ?_) rfl
  by_cases h : t < M
  · rw [if_pos h, if_pos h, Nat.add_zero]
  · rw [if_neg h, if_neg h, add_zero]; congr 1; omega

end Phil.Lpv
