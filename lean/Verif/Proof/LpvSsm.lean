import Verif.Proof.LtiSsm
import Verif.Model.LpvSsm

/-! # Correctness of the model of philtorch/lpv/ssm.py: the state recursion -/

namespace Spec
open Finset Torch
variable {α : Type} [CommRing α]

/-- `A (w+n-1) * … * A w`. -/
def mprod {M : Nat} (A : Nat → Matrix (Fin M) (Fin M) α) (w : Nat) : Nat → Matrix (Fin M) (Fin M) α
  | 0 => 1
  | n + 1 => A (w + n) * mprod A w n

theorem mprod_shift {M : Nat} (A : Nat → Matrix (Fin M) (Fin M) α) (s w n : Nat) :
    mprod (fun t => A (s + t)) w n = mprod A (s + w) n := by
  induction n with
  | zero => rfl
  | succ n ih => simp only [mprod]; rw [ih, Nat.add_assoc]

theorem mprod_succ_right {M : Nat} (A : Nat → Matrix (Fin M) (Fin M) α) (w n : Nat) :
    mprod A w (n + 1) = mprod A (w + 1) n * A w := by
  induction n with
  | zero => simp [mprod]
  | succ n ih =>
    rw [mprod, ih]
    simp only [mprod]
    rw [← Matrix.mul_assoc, Nat.add_right_comm, Nat.add_assoc]

theorem list_mprod {M : Nat} (A : Nat → Matrix (Fin M) (Fin M) α) (w n : Nat) :
    ((List.range n).map fun p => A (w + n - 1 - p)).prod = mprod A w n := by
  induction n with
  | zero => rfl
  | succ n ih =>
    rw [List.range_succ_eq_map]
    simp only [List.map_cons, List.map_map, List.prod_cons, mprod]
    rw [← ih, show w + (n + 1) - 1 - 0 = w + n by omega]
    congr 2
    refine List.map_congr_left fun p hp => ?_
    rw [List.mem_range] at hp
    simp only [Function.comp_def, Nat.succ_eq_add_one]
    congr 1
    omega

/-- Closed form with time-varying matrices. -/
theorem vecRec_var {M : Nat} (A : Nat → Matrix (Fin M) (Fin M) α) (h : Nat → α) (x : Nat → Nat → α) (n : Nat)
    {i : Nat} (hi : i < M) :
    vecRec M (fun t => fm (A t)) h x n i = ∑ k ∈ range M, fm (mprod A 0 n) i k * h k +
      ∑ w ∈ range n, ∑ k ∈ range M, fm (mprod A (w + 1) (n - 1 - w)) i k * x w k := by
  induction n generalizing i with
  | zero => simp only [vecRec, mprod, range_zero, sum_empty, add_zero]; rw [fm_one_mv h hi]
  | succ n ih =>
    simp only [vecRec]
    rw [show ∑ k ∈ range M, fm (A n) i k * vecRec M (fun t => fm (A t)) h x n k = ∑ k ∈ range M, fm (A n) i k *
      (∑ j ∈ range M, fm (mprod A 0 n) k j * h j + ∑ w ∈ range n, ∑ j ∈ range M, fm (mprod A (w + 1) (n - 1 - w)) k j * x w j) from
      sum_congr rfl fun k hk => by rw [ih (mem_range.mp hk)]]
    simp only [mul_add, sum_add_distrib]
    rw [fm_mv, sum_range_succ (fun w => ∑ k ∈ range M, fm (mprod A (w + 1) (n + 1 - 1 - w)) i k * x w k), add_assoc]
    refine congrArg₂ (· + ·) ?_ (congrArg₂ (· + ·) ?_ ?_)
    · refine sum_congr rfl fun j _ => ?_
      simp only [mprod, Nat.zero_add]
    · rw [show ∑ k ∈ range M, fm (A n) i k * ∑ w ∈ range n, ∑ j ∈ range M, fm (mprod A (w + 1) (n - 1 - w)) k j * x w j =
        ∑ w ∈ range n, ∑ k ∈ range M, fm (A n) i k * ∑ j ∈ range M, fm (mprod A (w + 1) (n - 1 - w)) k j * x w j from by
          simp only [mul_sum]; rw [sum_comm]]
      refine sum_congr rfl fun w hw => ?_
      rw [mem_range] at hw
      rw [fm_mv, show n + 1 - 1 - w = (n - 1 - w) + 1 by omega]
      simp only [mprod]
      rw [show w + 1 + (n - 1 - w) = n by omega]
    · rw [show n + 1 - 1 - n = 0 by omega]
      simp only [mprod]
      rw [fm_one_mv _ hi]

theorem vecRec_block_var {M : Nat} (A : Nat → Matrix (Fin M) (Fin M) α) (h : Nat → α) (x : Nat → Nat → α) (u k : Nat)
    {i : Nat} (hi : i < M) :
    vecRec M (fun k => fm (mprod A (k * u) u)) h
      (fun k i => ∑ w ∈ range u, ∑ j ∈ range M, fm (mprod A (k * u + (w + 1)) (u - 1 - w)) i j * x (k * u + w) j) k i =
      vecRec M (fun t => fm (A t)) h x (k * u) i := by
  induction k generalizing i with
  | zero => simp [vecRec]
  | succ k ih =>
    rw [Nat.succ_mul, vecRec_add M (fun t => fm (A t)) h x (k * u), vecRec_var (fun t => A (k * u + t)) _ _ u hi]
    simp only [vecRec, mprod_shift, Nat.add_zero]
    congr 1
    refine sum_congr rfl fun j hj => ?_
    rw [ih (mem_range.mp hj)]

end Spec

namespace Phil.Lpv
open Torch Torch.Tensor Finset Spec Phil.Mat
open Phil.Lti (XT xe OT OV OT_congr dQ dW dK dR sum_dQ xe_shift xe_pad padBlocksXT rank_XT size_XT_0 size_XT_1 input3)
variable {α : Type} [CommRing α]

theorem mT_MT3 (s : Bool) (B K R Q : Nat) (f : Nat → Nat → Nat → Nat → α) :
    mT (MT3 s B K R Q f) = .ok (MT3 s B K Q R fun b k i j => f b k j i) := by
  cases s
  · exact transpose_t3_n2_n1 _ _ _ _
  · exact transpose_t4_n2_n1 _ _ _ _ _

theorem size_MT3_n1 (s : Bool) (B K R Q : Nat) (f : Nat → Nat → Nat → Nat → α) : (MT3 s B K R Q f).size (-1) = Q := by
  cases s <;> rfl
theorem size_MT3_n2 (s : Bool) (B K R Q : Nat) (f : Nat → Nat → Nat → Nat → α) : (MT3 s B K R Q f).size (-2) = R := by
  cases s <;> rfl
theorem size_MT3_n3 (s : Bool) (B K R Q : Nat) (f : Nat → Nat → Nat → Nat → α) : (MT3 s B K R Q f).size (-3) = K := by
  cases s <;> rfl
theorem rank_MT3 (s : Bool) (B K R Q : Nat) (f : Nat → Nat → Nat → Nat → α) :
    (MT3 s B K R Q f).rank = 3 ∨ (MT3 s B K R Q f).rank = 4 := by
  cases s
  · exact Or.inl rfl
  · exact Or.inr rfl
theorem rank_MT3_size (s : Bool) (B K R Q : Nat) (f : Nat → Nat → Nat → Nat → α) (h : (MT3 s B K R Q f).rank = 4) :
    (MT3 s B K R Q f).size 0 = B := by
  cases s
  · exact absurd h (by simp [MT3])
  · rfl

theorem recursionLoop_eq (s d : Bool) {B N M : Nat} (A : Nat → Nat → Matrix (Fin M) (Fin M) α) (zi : Nat → Nat → α)
    (x : Nat → Nat → Nat → α) (o : Option Int) (ho : OV M o) (hM : 0 < M) (hN : 0 < N) :
    recursionLoop (MT3 s B N M M fun b t => fm (A b t)) (t2 B M zi) (XT d B N M x) o =
      .ok (OT o B N M fun b t m => vecRec M (fun t => fm (A (sel s b) t)) (zi b) (xe d (x b)) (t + 1) m) := by
  unfold recursionLoop
  refine check_step (by rw [size_XT_1, size_MT3_n3]) ?_
  refine bind_step (mT_MT3 s B N M M _) ?_
  rw [size_MT3_n1]
  refine bind_step (input3 d B N M hM x) ?_
  cases s with
  | false =>
    rw [if_pos (show (MT3 false B N M M fun b t => fm (A b t)).rank = 3 from rfl)]
    refine bind_step (unbind_t3_1 _ _ _ _) ?_
    refine bind_step (unbind_t3_0 _ _ _ _) ?_
    rw [List.zip_map']
    refine bind_step (scanM_range _ (fun t => t2 B M fun b i =>
      vecRec M (fun t => fm (A 0 t)) (zi b) (xe d (x b)) t i) _ N fun t ht => ?_) ?_
    · simp only []
      rw [addmm_t2]
      refine congrArg Except.ok (t2_congr rfl rfl fun b i _ _ => ?_)
      simp only [vecRec]
      rw [add_comm]
      exact congrArg (· + _) (sum_congr rfl fun k _ => mul_comm _ _)
    cases o with
    | none =>
      refine bind_step (mapM_range _ _ (fun t => t2 B M fun b i =>
        vecRec M (fun t => fm (A 0 t)) (zi b) (xe d (x b)) (t + 1) i) N fun t _ => rfl) ?_
      exact stack_t2_1 B M N (fun t b i => vecRec M (fun t => fm (A 0 t)) (zi b) (xe d (x b)) (t + 1) i) hN
    | some o =>
      refine bind_step (mapM_range _ _ (fun t => t1 B fun b =>
        vecRec M (fun t => fm (A 0 t)) (zi b) (xe d (x b)) (t + 1) (nidx M o)) N fun t _ => ?_) ?_
      · exact select_t2_1_idx _ _ _ _ ho
      exact stack_t1_1 B N (fun t b => vecRec M (fun t => fm (A 0 t)) (zi b) (xe d (x b)) (t + 1) (nidx M o)) hN
  | true =>
    rw [if_neg (show ¬ (MT3 true B N M M fun b t => fm (A b t)).rank = 3 by simp [MT3])]
    refine bind_step (unsqueeze_t2_1 _ _ _) ?_
    refine bind_step (unbind_t3_1 _ _ _ _) ?_
    refine bind_step (unbind_t4_1 _ _ _ _ _) ?_
    rw [List.zip_map']
    refine bind_step (scanM_range _ (fun t => t3 B 1 M fun b _ i =>
      vecRec M (fun t => fm (A b t)) (zi b) (xe d (x b)) t i) _ N fun t ht => ?_) ?_
    · refine bind_step (unsqueeze_t2_1 _ _ _) ?_
      rw [baddbmm_t3]
      refine congrArg Except.ok (t3_congr rfl rfl rfl fun b _ i _ _ _ => ?_)
      simp only [vecRec]
      rw [add_comm]
      exact congrArg (· + _) (sum_congr rfl fun k _ => mul_comm _ _)
    cases o with
    | none =>
      refine bind_step (mapM_range _ _ (fun t => t3 B 1 M fun b _ i =>
        vecRec M (fun t => fm (A b t)) (zi b) (xe d (x b)) (t + 1) i) N fun t _ => rfl) ?_
      exact cat_cols3 B M N hN fun b t i => vecRec M (fun t => fm (A b t)) (zi b) (xe d (x b)) (t + 1) i
    | some o =>
      refine bind_step (mapM_range _ _ (fun t => t2 B 1 fun b _ =>
        vecRec M (fun t => fm (A b t)) (zi b) (xe d (x b)) (t + 1) (nidx M o)) N fun t _ => ?_) ?_
      · exact select_t3_2_idx _ _ _ _ _ ho
      exact cat_cols2 B N hN fun b t => vecRec M (fun t => fm (A b t)) (zi b) (xe d (x b)) (t + 1) (nidx M o)

/-! ### the blocked algorithm -/

/-- A block-and-offset stack of matrices, shared or one per batch item. -/
def MT4 : Bool → (B K U R Q : Nat) → (Nat → Nat → Nat → Nat → Nat → α) → Tensor α
  | true, B, K, U, R, Q, f => t5 B K U R Q f
  | false, _, K, U, R, Q, f => t4 K U R Q (f 0)

theorem padA (s : Bool) {B N M u K : Nat} (A : Nat → Nat → Matrix (Fin M) (Fin M) α)
    (hK1 : N % u = 0 → K * u = N) (hK2 : N % u ≠ 0 → K * u = N + (u - N % u)) :
    (if N % u ≠ 0 then padDim (MT3 s B N M M fun b t => fm (A b t)) (-3) 0 ((u - N % u : Nat) : Int) 0
      else pure (MT3 s B N M M fun b t => fm (A b t))) =
      .ok (MT3 s B (K * u) M M fun b t => fm (if t < N then A b t else 0)) := by
  by_cases h : N % u = 0
  · rw [if_neg (by omega), pure_eq_ok, hK1 h]
    refine congrArg Except.ok (MT3_congr rfl rfl rfl rfl fun b k i j hk _ _ => ?_)
    rw [if_pos hk]
  · rw [if_pos h, hK2 h]
    have : ∀ b t i j, (if t < N then fm (A b t) i j else 0) = fm (if t < N then A b t else 0) i j := by
      intro b t i j; split
      · rfl
      · rw [fm_zero]
    cases s
    · simp only [MT3]
      rw [padDim_t3_n3_right]
      exact congrArg Except.ok (t3_congr rfl rfl rfl fun t i j _ _ _ => this 0 t i j)
    · simp only [MT3]
      rw [padDim_t4_n3_right]
      exact congrArg Except.ok (t4_congr rfl rfl rfl rfl fun b t i j _ _ _ _ => this b t i j)

theorem unrollA (s : Bool) {B M u K : Nat} (hu : 0 < u) (A : Nat → Nat → Matrix (Fin M) (Fin M) α) :
    unflatten (MT3 s B (K * u) M M fun b t => fm (A b t)) (-3) [none, some u] =
      .ok (MT4 s B K u M M fun b k t => fm (A b (k * u + t))) := by
  have hKu : K * u % u = 0 := Nat.mul_mod_left K u
  cases s
  · simp only [MT3, MT4]
    rw [unflatten_t3_n3_m1_c _ _ _ _ _ hu hKu, Nat.mul_div_cancel _ hu]
  · simp only [MT3, MT4]
    rw [unflatten_t4_n3_m1_c _ _ _ _ _ _ hu hKu, Nat.mul_div_cancel _ hu]

theorem cums_eq (s : Bool) {B M u K : Nat} (hu : 1 < u) (hP : (u - 1).Prime ∨ u - 1 = 1)
    (A : Nat → Nat → Matrix (Fin M) (Fin M) α) :
    ssrCums (MT4 s B K u M M fun b k t => fm (A b (k * u + t))) =
      .ok (MT4 s B K (u - 1) M M fun b k j => fm (mprod (A b) (k * u + (j + 1)) (u - 1 - j))) := by
  have hprod : ∀ b k j, j < u - 1 → ((List.range (u - 1 - 1 - j + 1)).map fun p => A b (k * u + (u - 1 - 1 - p + 1))).prod =
      mprod (A b) (k * u + (j + 1)) (u - 1 - j) := by
    intro b k j hj
    rw [← list_mprod, show u - 1 - 1 - j + 1 = u - 1 - j by omega]
    congr 1
    refine List.map_congr_left fun p hp => ?_
    rw [List.mem_range] at hp
    congr 1
    omega
  unfold ssrCums
  cases s
  · simp only [MT4]
    refine bind_step (v := t4 K (u - 1) M M fun k j => fm (A 0 (k * u + (j + 1)))) ?_ ?_
    · tens1
      rw [show min 1 u = 1 by omega]
    refine bind_step (flip_t4_n3 _ _ _ _ _) ?_
    refine bind_step (cumdot_t4 (fun k p => A 0 (k * u + (u - 1 - 1 - p + 1))) hP) ?_
    rw [flip_t4_n3]
    refine congrArg Except.ok (t4_congr rfl rfl rfl rfl fun k j i i' _ hj _ _ => ?_)
    rw [hprod 0 k j hj]
  · simp only [MT4]
    refine bind_step (v := t5 B K (u - 1) M M fun b k j => fm (A b (k * u + (j + 1)))) ?_ ?_
    · tens1
      rw [show min 1 u = 1 by omega]
    refine bind_step (flip_t5_n3 _ _ _ _ _ _) ?_
    refine bind_step (cumdot_t5 (fun b k p => A b (k * u + (u - 1 - 1 - p + 1))) hP) ?_
    rw [flip_t5_n3]
    refine congrArg Except.ok (t5_congr rfl rfl rfl rfl rfl fun b k j i i' _ _ hj _ _ => ?_)
    rw [hprod b k j hj]

theorem lastCum_eq (s : Bool) {B M u K : Nat} (hu : 1 < u) (A : Nat → Nat → Matrix (Fin M) (Fin M) α) :
    ssrLastCum (MT4 s B K (u - 1) M M fun b k j => fm (mprod (A b) (k * u + (j + 1)) (u - 1 - j)))
      (MT4 s B K u M M fun b k t => fm (A b (k * u + t))) =
      .ok (MT3 s B K M M fun b k => fm (mprod (A b) (k * u) u)) := by
  have h : ∀ b k, mprod (A b) (k * u + (0 + 1)) (u - 1 - 0) * A b (k * u + 0) = mprod (A b) (k * u) u := by
    intro b k
    obtain ⟨n, rfl⟩ : ∃ n, u = n + 1 := ⟨u - 1, by omega⟩
    rw [mprod_succ_right]; rfl
  unfold ssrLastCum
  cases s
  · simp only [MT4, MT3]
    refine bind_step (select_t4_n3_0 _ _ _ _ _ (by omega)) (bind_step (select_t4_n3_0 _ _ _ _ _ (by omega)) ?_)
    rw [matmul_fm3]
    exact congrArg Except.ok (t3_congr rfl rfl rfl fun k i j _ _ _ => by rw [h])
  · simp only [MT4, MT3]
    refine bind_step (select_t5_n3_0 _ _ _ _ _ _ (by omega)) (bind_step (select_t5_n3_0 _ _ _ _ _ _ (by omega)) ?_)
    rw [matmul_fm4]
    exact congrArg Except.ok (t4_congr rfl rfl rfl rfl fun b k i j _ _ _ _ => by rw [h])

theorem cumsPlusI_eq (s : Bool) {B M u K : Nat} (hu : 1 < u) (A : Nat → Nat → Matrix (Fin M) (Fin M) α) :
    ssrCumsPlusI (MT4 s B K (u - 1) M M fun b k j => fm (mprod (A b) (k * u + (j + 1)) (u - 1 - j))) M =
      .ok (MT4 s B K u M M fun b k w => fm (mprod (A b) (k * u + (w + 1)) (u - 1 - w))) := by
  unfold ssrCumsPlusI
  cases s
  · simp only [MT4]
    refine bind_step (v := t4 K 1 M M fun _ _ => fm (1 : Matrix (Fin M) (Fin M) α)) ?_ ?_
    · rw [eye]
      exact (expand_pq_nmpq _ _ _ _ _).trans (congrArg Except.ok (t4_congr rfl rfl rfl rfl fun _ _ i j _ _ hi hj => (fm_one i j hi).symm))
    rw [cat2_t4_n3]
    refine congrArg Except.ok (t4_congr rfl (by omega) rfl rfl fun k w i j _ hw _ _ => ?_)
    split
    · rfl
    · rw [show u - 1 - w = 0 by omega]; rfl
  · simp only [MT4]
    refine bind_step (v := t5 B K 1 M M fun _ _ _ => fm (1 : Matrix (Fin M) (Fin M) α)) ?_ ?_
    · rw [eye]
      exact (expand_qr_nmpqr _ _ _ _ _ _).trans (congrArg Except.ok (t5_congr rfl rfl rfl rfl rfl fun _ _ _ i j _ _ _ hi hj => (fm_one i j hi).symm))
    rw [cat2_t5_n3]
    refine congrArg Except.ok (t5_congr rfl rfl (by omega) rfl rfl fun b k w i j _ _ hw _ _ => ?_)
    split
    · rfl
    · rw [show u - 1 - w = 0 by omega]; rfl

theorem mat1_eq (s d : Bool) {B K u M : Nat} (hM : 0 < M) (P : Nat → Nat → Nat → Matrix (Fin M) (Fin M) α) :
    ssrMat1 (MT4 s B K u M M fun b k w => fm (P b k w)) (dR d) =
      .ok (MT3 s B K (dQ d u M) M fun b k q i => fm (P b k (dW d M q)) i (dK d M q)) := by
  unfold ssrMat1
  cases d <;> cases s <;> simp only [MT3, MT4, dR, if_true, Nat.reduceEqDiff, if_false, dW, dK, dQ]
  · tens1
  · tens1
  · refine bind_step (transpose_t4_n2_n1 _ _ _ _ _) ?_
    rw [flatten_t4_n3_n2]
  · refine bind_step (transpose_t5_n2_n1 _ _ _ _ _ _) ?_
    rw [flatten_t5_n3_n2]

theorem z_eq (s : Bool) {B K Q M : Nat} (x : Nat → Nat → Nat → α) (f : Nat → Nat → Nat → Nat → α) :
    (do let u1 ← unsqueeze (t3 B K Q x) (-2); let z ← matmul u1 (MT3 s B K Q M f); squeeze z (-2)) =
      Except.ok (t3 B K M fun b k i => ∑ q ∈ range Q, x b k q * f (sel s b) k q i) := by
  refine bind_step (unsqueeze_t3_n2 _ _ _ _) ?_
  cases s
  · simp only [MT3, sel]
    rw [matmul_nmpq_mqr, ok_bind, squeeze_t4_n2]
  · simp only [MT3, sel]
    rw [matmul_nmpq_nmqr, ok_bind, squeeze_t4_n2]

theorem unrolledX (d : Bool) {B K u M : Nat} (hu : 0 < u) (x : Nat → Nat → Nat → α) :
    ∃ ux, unflatten (XT d B (K * u) M x) 1 [none, some u] = .ok ux ∧
      flatten ux 2 (-1) = .ok (t3 B K (dQ d u M) fun b k q => x b (k * u + dW d M q) (dK d M q)) ∧
      (do let y ← slice ux 2 none (some (-1)); flatten y 0 1) =
        Except.ok (XT d (B * K) (u - 1) M fun r t k => x (r / K) (r % K * u + t) k) := by
  have hKu : K * u % u = 0 := Nat.mul_mod_left K u
  cases d
  · refine ⟨t3 B K u fun b k j => x b (k * u + j) 0, ?_, flatten_t3_2_n1 _ _ _ _, ?_⟩
    · simp only [XT]
      rw [unflatten_t2_1_m1_c _ _ _ _ hu hKu, Nat.mul_div_cancel _ hu]
    · refine bind_step (v := t3 B K (u - 1) fun b k j => x b (k * u + j) 0) (by tens1; rfl) ?_
      rw [flatten_t3_0_1]; rfl
  · refine ⟨t4 B K u M fun b k j => x b (k * u + j), ?_, flatten_t4_2_n1 _ _ _ _ _, ?_⟩
    · simp only [XT]
      rw [unflatten_t3_1_m1_c _ _ _ _ _ hu hKu, Nat.mul_div_cancel _ hu]
    · refine bind_step (v := t4 B K (u - 1) M fun b k j => x b (k * u + j)) (by tens1; rfl) ?_
      rw [flatten_t4_0_1]; rfl

theorem repeat0_t4 (n m p q k : Nat) (f : Nat → Nat → Nat → Nat → α) :
    repeat0 (t4 n m p q f) k = .ok (t4 (k * n) m p q fun i j => f (i % n) j) := by
  unfold repeat0
  refine check_step (by simp) ?_
  rw [pure_eq_ok]
  refine congrArg Except.ok (ext4 (n := k * n) (m := m) (p := p) (q := q) rfl rfl fun i j r o hi hj hr ho => ?_)
  have hn : i % n < n := Nat.mod_lt _ (Nat.pos_of_ne_zero fun h => by rw [h, Nat.mul_zero] at hi; omega)
  rw [get_t4 hi hj hr ho]
  exact (get_ofFn4 hi hj hr ho).trans (get_t4 hn hj hr ho)

theorem innerA (s : Bool) {B K u M : Nat} (A : Nat → Nat → Matrix (Fin M) (Fin M) α) :
    ssrInnerA (MT4 s B K u M M fun b k t => fm (A b (k * u + t))) B =
      .ok (MT3 true (B * K) (u - 1) M M fun r t => fm (A (sel s (r / K)) (r % K * u + t))) := by
  unfold ssrInnerA
  cases s
  · rw [if_neg (by simp [MT4])]
    simp only [MT4, MT3, sel]
    refine bind_step (v := t4 K (u - 1) M M fun k t => fm (A 0 (k * u + t))) (by tens1; rfl) ?_
    rw [repeat0_t4]
  · rw [if_pos (by simp [MT4])]
    simp only [MT4, MT3, sel]
    refine bind_step (v := t5 B K (u - 1) M M fun b k t => fm (A b (k * u + t))) (by tens1; rfl) ?_
    rw [flatten_t5_0_1]

/-- Outputs inside the blocks. -/
def OB : Option Int → (B K U M : Nat) → (Nat → Nat → Nat → Nat → α) → Tensor α
  | none, B, K, U, M, y => t4 B K U M y
  | some i, B, K, U, M, y => t3 B K U fun b k t => y b k t (nidx M i)

theorem unflattenO (o : Option Int) {B K U M : Nat} (hB : 0 < B) (y : Nat → Nat → Nat → α) :
    unflatten (OT o (B * K) U M y) 0 [some B, none] = .ok (OB o B K U M fun b k t m => y (b * K + k) t m) := by
  cases o
  · simp only [OT, OB]
    rw [unflatten_some_none (p := 0) (c' := B) (c := K) rfl rfl hB, unflatten_t3_0_c_c]
  · simp only [OT, OB]
    rw [unflatten_some_none (p := 0) (c' := B) (c := K) rfl rfl hB, unflatten_t2_0_c_c]

theorem OB_congr {o : Option Int} {B K U M : Nat} {y z : Nat → Nat → Nat → Nat → α} (ho : OV M o)
    (h : ∀ b k t m, b < B → k < K → t < U → m < M → y b k t m = z b k t m) : OB o B K U M y = OB o B K U M z := by
  cases o with
  | none => exact t4_congr rfl rfl rfl rfl fun b k t m hb hk ht hm => h b k t m hb hk ht hm
  | some i => exact t3_congr rfl rfl rfl fun b k t hb hk ht => h b k t _ hb hk ht (nidx_lt ho)

theorem assemble_eq {B K u M : Nat} (hu : 1 < u) (o : Option Int) (ho : OV M o) (y : Nat → Nat → Nat → α) :
    ssrAssemble (OB o B K (u - 1) M fun b k t m => y b (k * u + (t + 1)) m)
      (t3 B (K + 1) M fun b k m => y b (k * u) m) o =
      .ok (OT o B (K * u) M fun b t m => y b (t + 1) m) := by
  unfold ssrAssemble
  refine bind_step (v := t3 B K M fun b k m => y b ((k + 1) * u) m) ?_ ?_
  · tens1
    refine congrArg Except.ok (t3_congr rfl (by omega) rfl fun b k m hb hk _ => ?_)
    rw [show min 1 (K + 1) = 1 by omega]
  cases o with
  | none =>
    simp only [OB, OT]
    refine bind_step (unsqueeze_t3_2 _ _ _ _) ?_
    refine bind_step (v := t4 B K u M fun b k r m => y b (k * u + (r + 1)) m) ?_ ?_
    · rw [cat2_t4_2]
      refine congrArg Except.ok (t4_congr rfl rfl (by omega) rfl fun b k r m _ _ hr _ => ?_)
      split
      · rfl
      · rw [Nat.succ_mul, show r + 1 = u by omega]
    rw [flatten_t4_1_2]
    refine congrArg Except.ok (t3_congr rfl rfl rfl fun b t m _ ht hm => ?_)
    rw [← Nat.add_assoc, Nat.mul_comm, Nat.div_add_mod]
  | some i =>
    simp only [OB, OT]
    refine bind_step (select_t3_2_idx _ _ _ _ _ ho) ?_
    refine bind_step (unsqueeze_t2_n1 _ _ _) ?_
    refine bind_step (v := t3 B K u fun b k r => y b (k * u + (r + 1)) (nidx M i)) ?_ ?_
    · rw [cat2_t3_2]
      refine congrArg Except.ok (t3_congr rfl rfl (by omega) fun b k r _ _ hr => ?_)
      split
      · rfl
      · rw [Nat.succ_mul, show r + 1 = u by omega]
    rw [flatten_t3_1_2]
    refine congrArg Except.ok (t2_congr rfl rfl fun b t _ ht => ?_)
    rw [← Nat.add_assoc, Nat.mul_comm, Nat.div_add_mod]

/-- `looper` computes the state recurrence for states of dimension `M`. -/
def LooperOk (M : Nat) (looper : Tensor α → Tensor α → Tensor α → Option Int → Res (Tensor α)) : Prop :=
  ∀ (s d : Bool) {B N : Nat} (A : Nat → Nat → Matrix (Fin M) (Fin M) α) (zi : Nat → Nat → α) (x : Nat → Nat → Nat → α)
    (o : Option Int), OV M o → 0 < M → 0 < N →
    looper (MT3 s B N M M fun b t => fm (A b t)) (t2 B M zi) (XT d B N M x) o =
      .ok (OT o B N M fun b t m => vecRec M (fun t => fm (A (sel s b) t)) (zi b) (xe d (x b)) (t + 1) m)

theorem blocked_eq {looper : Tensor α → Tensor α → Tensor α → Option Int → Res (Tensor α)} {M : Nat} (hl : LooperOk M looper)
    (rec : Tensor α → Tensor α → Tensor α → Res (Tensor α)) (s d : Bool) {B N u : Nat}
    (A : Nat → Nat → Matrix (Fin M) (Fin M) α) (zi : Nat → Nat → α) (x : Nat → Nat → Nat → α) (o : Option Int)
    (ho : OV M o) (hB : 0 < B) (hM : 0 < M) (hu : 1 < u) (huN : u < N) (hP : (u - 1).Prime ∨ u - 1 = 1)
    (hrec : ∀ K, 0 < K → K < N → ∀ (A : Nat → Nat → Matrix (Fin M) (Fin M) α) (z : Nat → Nat → Nat → α),
      rec (MT3 s B K M M fun b t => fm (A b t)) (t2 B M zi) (t3 B K M z) =
        .ok (t3 B K M fun b t m => vecRec M (fun t => fm (A (sel s b) t)) (zi b) (z b) (t + 1) m)) :
    ssrBlocked looper rec (MT3 s B N M M fun b t => fm (A b t)) (t2 B M zi) (XT d B N M x) u N M o =
      .ok (OT o B N M fun b t m => vecRec M (fun t => fm (A (sel s b) t)) (zi b) (xe d (x b)) (t + 1) m) := by
  unfold ssrBlocked
  obtain ⟨K, hK0, hKN, hNK, hK1, hK2, hpad⟩ := padBlocksXT d (B := B) (M := M) x hu huN
  refine bind_step hpad (bind_step (padA s A hK1 hK2) ?_)
  generalize hxp : (fun (b t k : Nat) => if t < N then x b t k else 0) = xp
  have hxe : ∀ b t k, t < N → xe d (xp b) t k = xe d (x b) t k := by
    intro b t k ht; rw [← hxp]; exact xe_pad d (x b) N t k ht
  obtain ⟨Ap, hAp⟩ : ∃ Ap : Nat → Nat → Matrix (Fin M) (Fin M) α, Ap = fun b t => if t < N then A b t else 0 := ⟨_, rfl⟩
  have hA : ∀ b t, t < N → Ap b t = A b t := by
    intro b t ht; rw [hAp]; exact if_pos ht
  rw [show (fun b t => fm (if t < N then A b t else 0)) = fun b t => fm (Ap b t) by rw [hAp]]
  clear hxp hpad hAp
  obtain ⟨ux, hux, huxf, hux0⟩ := unrolledX d (B := B) (K := K) (u := u) (M := M) (by omega) xp
  refine bind_step hux (bind_step huxf (bind_step (unrollA s (by omega) Ap) ?_))
  refine bind_step (cums_eq s hu hP Ap) (bind_step (lastCum_eq s hu Ap) (bind_step (cumsPlusI_eq s hu Ap) ?_))
  rw [rank_XT, size_XT_0]
  refine bind_step (mat1_eq s d hM fun b k w => mprod (Ap b) (k * u + (w + 1)) (u - 1 - w)) ?_
  rw [bind_assoc3 (z_eq s _ _)]
  refine bind_step (unsqueeze_t2_1 _ _ _) ?_
  let st : Nat → Nat → Nat → α := fun b t m => vecRec M (fun t => fm (Ap (sel s b) t)) (zi b) (xe d (xp b)) t m
  refine bind_step (v := t3 B K M fun b k m => st b ((k + 1) * u) m) ?_ ?_
  · rw [hrec K hK0 hKN]
    refine congrArg Except.ok (t3_congr rfl rfl rfl fun b k m _ _ hm => ?_)
    simp only [st]
    rw [← vecRec_block_var _ _ _ _ _ hm]
    refine vecRec_congr (fun _ _ => rfl) (fun _ _ _ _ _ _ => rfl) (fun k _ i hi => ?_) hm
    rw [sum_dQ d u M hM (fun w j => xp b (k * u + w) j) fun w j => fm (mprod (Ap (sel s b)) (k * u + (w + 1)) (u - 1 - w)) i j]
    refine sum_congr rfl fun w _ => sum_congr rfl fun j _ => ?_
    rw [xe_shift d (xp b), mul_comm]
  refine bind_step (v := t3 B (K + 1) M fun b k m => st b (k * u) m) ?_ ?_
  · rw [cat2_t3_1]
    refine congrArg Except.ok (t3_congr rfl (by omega) rfl fun b k m _ hk hm => ?_)
    split
    · rw [show k = 0 by omega, Nat.zero_mul]; rfl
    · rw [Nat.sub_add_cancel (by omega)]
  refine bind_step (innerA s Ap) ?_
  refine bind_step (v := t3 B K M fun b k m => st b (k * u) m) (by tens1; rfl) ?_
  refine bind_step (flatten_t3_0_1 _ _ _ _) ?_
  obtain ⟨y0, hy0, hy0'⟩ : ∃ v, slice ux 2 none (some (-1)) = .ok v ∧ flatten v 0 1 =
      Except.ok (XT d (B * K) (u - 1) M fun r t k => xp (r / K) (r % K * u + t) k) := by
    cases hv : slice ux 2 none (some (-1)) with
    | error e => rw [hv] at hux0; cases hux0
    | ok v => exact ⟨v, rfl, by rw [hv] at hux0; exact hux0⟩
  refine bind_step hy0 (bind_step hy0' ?_)
  refine bind_step (hl true d (fun r t => Ap (sel s (r / K)) (r % K * u + t)) _ _ o ho hM (by omega)) ?_
  refine bind_step (unflattenO o hB _) ?_
  refine bind_step (v := OT o B (K * u) M fun b t m => st b (t + 1) m) ?_ ?_
  · rw [← assemble_eq hu o ho st]
    congr 1
    refine OB_congr ho fun b k t m _ hk ht hm => ?_
    have h1 : (b * K + k) / K = b := by
      rw [Nat.add_comm, Nat.add_mul_div_right _ _ hK0, Nat.div_eq_of_lt hk, Nat.zero_add]
    have h2 : (b * K + k) % K = k := by
      rw [Nat.add_comm, Nat.add_mul_mod_self_right, Nat.mod_eq_of_lt hk]
    simp only [h1, h2, st]
    rw [show sel true (b * K + k) = b * K + k from rfl, h1, h2, vecRec_add M (fun t => fm (Ap (sel s b) t)) (zi b) (xe d (xp b)) (k * u)]
    exact vecRec_congr (fun _ _ => rfl) (fun _ _ _ _ _ _ => rfl) (fun w _ j _ => xe_shift d (xp b) _ _ _) hm
  have hfin : ∀ b t m, t < N → m < M → st b (t + 1) m =
      vecRec M (fun t => fm (A (sel s b) t)) (zi b) (xe d (x b)) (t + 1) m := fun b t m ht hm =>
    vecRec_congr (fun _ _ => rfl) (fun j hj _ _ _ _ => by rw [hA _ j (by omega)]) (fun j hj i _ => hxe b j i (by omega)) hm
  split
  · rename_i hm
    have hp := Nat.mod_lt N (show u > 0 by omega)
    have hsl : slice (OT o B (K * u) M fun b t m => st b (t + 1) m) 1 none (some (-((u - N % u : Nat) : Int))) =
        .ok (OT o B (K * u - (u - N % u)) M fun b t m => st b (t + 1) m) := by
      cases o
      · simp only [OT]
        rw [slice_t3_1, pyStop_neg _ _ (by omega), pyStart_none]; rfl
      · simp only [OT]
        rw [slice_t2_1, pyStop_neg _ _ (by omega), pyStart_none]; rfl
    rw [hsl, hK2 hm]
    exact congrArg Except.ok (OT_congr ho rfl (by omega) fun b t m _ ht hm => hfin b t m (by omega) hm)
  · rename_i hm
    rw [hK1 (by omega), pure_eq_ok]
    exact congrArg Except.ok (OT_congr ho rfl rfl fun b t m _ ht hm => hfin b t m ht hm)

theorem stateSpaceRecursionAux_eq {looper : Tensor α → Tensor α → Tensor α → Option Int → Res (Tensor α)}
    {M : Nat} (hl : LooperOk M looper) (u : Nat) (hu : 0 < u) (fuel : Nat) (s d : Bool) {B N : Nat}
    (A : Nat → Nat → Matrix (Fin M) (Fin M) α) (zi : Nat → Nat → α) (x : Nat → Nat → Nat → α) (o : Option Int)
    (ho : OV M o) (hB : 0 < B) (hM : 0 < M) (hN : 0 < N) (hP : u = 1 ∨ u ≥ N ∨ (u - 1).Prime ∨ u - 1 = 1) (hf : N < fuel) :
    stateSpaceRecursionAux looper (u : Int) fuel (MT3 s B N M M fun b t => fm (A b t)) (t2 B M zi) (XT d B N M x) o =
      .ok (OT o B N M fun b t m => vecRec M (fun t => fm (A (sel s b) t)) (zi b) (xe d (x b)) (t + 1) m) := by
  induction fuel generalizing d N A x o with
  | zero => omega
  | succ fuel ih =>
    rw [stateSpaceRecursionAux]
    refine check_step (by cases d <;> simp [XT]) (check_step (rank_MT3 _ _ _ _ _ _) (check_step ?_ (check_step ?_ (check_step ?_
      (check_step ?_ (check_step rfl (check_step ?_ (check_step ?_ (check_step (by omega) ?_)))))))))
    · rw [size_MT3_n1, size_MT3_n2]
    · rw [size_MT3_n3, size_XT_1]
    · intro h; rw [rank_MT3_size _ _ _ _ _ _ h, size_XT_0]
    · intro h; rw [size_MT3_n1]; cases d
      · exact absurd h (by simp [XT])
      · rfl
    · rw [size_XT_0]; rfl
    · rw [size_MT3_n1]; rfl
    rw [Int.toNat_natCast, size_XT_1, size_MT3_n1]
    by_cases hs : u = 1 ∨ u ≥ N
    · rw [if_pos hs]
      exact hl s d A zi x o ho hM hN
    rw [if_neg hs]
    push Not at hs
    have hP' : (u - 1).Prime ∨ u - 1 = 1 := by
      rcases hP with h | h | h
      · exact absurd h hs.1
      · omega
      · exact h
    refine blocked_eq hl _ s d A zi x o ho hB hM (by omega) hs.2 hP' fun K hK0 hKN A' z => ?_
    exact ih true A' z none trivial hK0 (Or.inr (Or.inr hP')) (by omega)

theorem stateSpaceRecursion_eq (u : Nat) (hu : 0 < u) (s d : Bool) {B N M : Nat} (A : Nat → Nat → Matrix (Fin M) (Fin M) α)
    (zi : Nat → Nat → α) (x : Nat → Nat → Nat → α) (o : Option Int) (ho : OV M o) (hB : 0 < B) (hM : 0 < M) (hN : 0 < N)
    (hP : u = 1 ∨ u ≥ N ∨ (u - 1).Prime ∨ u - 1 = 1) :
    stateSpaceRecursion (MT3 s B N M M fun b t => fm (A b t)) (t2 B M zi) (XT d B N M x) (u : Int) o =
      .ok (OT o B N M fun b t m => vecRec M (fun t => fm (A (sel s b) t)) (zi b) (xe d (x b)) (t + 1) m) := by
  unfold stateSpaceRecursion
  refine stateSpaceRecursionAux_eq (fun s d => recursionLoop_eq s d) u hu _ s d A zi x o ho hB hM hN hP ?_
  rw [size_XT_1]; omega

theorem layout_MT3 {B N M : Nat} {A : Tensor α} {Av : Nat → Nat → Nat → Nat → α} (hA : MatSeq B N M M A Av) :
    ∃ s, A = MT3 s B N M M (fun b t => fm (mat M M (Av b t))) ∧ ∀ b, Av (sel s b) = Av b := by
  cases hA with
  | shared f => exact ⟨false, t3_eq_fm f, fun _ => rfl⟩
  | batched => exact ⟨true, t4_eq_fm _, fun _ => rfl⟩

theorem stateSpaceRecursion_layout {B N M : Nat} {A x : Tensor α} {Av : Nat → Nat → Nat → Nat → α}
    {xv : Nat → Nat → Nat → α} (hA : MatSeq B N M M A Av) (hx : Drive B N M x xv) (zi : Nat → Nat → α) (u : Int)
    (o : Option Int) (ho : OV M o) (hB : 0 < B) (hM : 0 < M) (hN : 0 < N) (hu : 1 ≤ u)
    (hP : u ≤ 2 ∨ (N : Int) ≤ u ∨ (u.toNat - 1).Prime) :
    stateSpaceRecursion A (t2 B M zi) x u o =
      .ok (OT o B N M fun b t m => vecRec M (Av b) (zi b) (xv b) (t + 1) m) := by
  lift u to ℕ using by omega
  rw [Int.toNat_natCast] at hP
  obtain ⟨s, rfl, hs⟩ := layout_MT3 hA
  obtain ⟨d, x', rfl, hd⟩ := Phil.Lti.layout_XT hx
  rw [stateSpaceRecursion_eq u (by omega) s d (fun b t => mat M M (Av b t)) zi x' o ho hB hM hN (by
    rcases hP with h | h | h
    · omega
    · omega
    · exact Or.inr (Or.inr (Or.inl h)))]
  refine congrArg Except.ok (OT_congr ho rfl rfl fun b t m _ _ hm => ?_)
  rw [hd, hs]
  exact vecRec_congr (fun _ _ => rfl) (fun _ _ i k hi hk => fm_mat _ hi hk) (fun _ _ _ _ => rfl) hm

end Phil.Lpv
