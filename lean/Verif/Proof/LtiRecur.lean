import Verif.Torch.Loop
import Verif.Proof.Recur
import Verif.Model.LtiRecur

/-! # Correctness of the model of philtorch/lti/recur.py -/

namespace Phil.Lti
open Torch Torch.Tensor Finset Spec
variable {α : Type} [CommRing α]

/-- Value of a `(1,)` or `(B,)` tensor for batch item `b`. -/
def bv (n : Nat) (f : Nat → α) (b : Nat) : α := if n = 1 then f 0 else f b

omit [CommRing α] in
theorem bv_one (f : Nat → α) (b : Nat) : bv 1 f b = f 0 := by simp [bv]
omit [CommRing α] in
theorem bv_self {B b : Nat} (f : Nat → α) (hb : b < B) : bv B f b = f b := by
  unfold bv
  split
  · rw [show b = 0 by omega]
  · rfl

theorem loop_step {B na nh : Nat} (a h x : Nat → α) (ha : na = 1 ∨ na = B) (hh : nh = 1 ∨ nh = B) :
    (do let ah ← mul (t1 na a) (t1 nh h); add ah (t1 B x)) =
      .ok (t1 B fun b => bv na a b * bv nh h b + x b) := by
  simp only [mul, add]
  rcases ha with rfl | rfl <;> rcases hh with rfl | rfl <;> simp only [tens] <;>
    refine congrArg Except.ok (t1_congr rfl fun b hb => ?_) <;> simp [bv_one, bv_self _ hb]

theorem scalarRecursionLoop_eq {B N na ni : Nat} (a h : Nat → α) (x : Nat → Nat → α)
    (ha : na = 1 ∨ na = B) (hi : ni = 1 ∨ ni = B) (hN : 0 < N) :
    scalarRecursionLoop (t1 na a) (t1 ni h) (t2 B N x) =
      .ok (t2 B N fun b t => scalarRec (fun _ => bv na a b) (bv ni h b) (x b) (t + 1)) := by
  unfold scalarRecursionLoop
  refine bind_step (unbind_t2_1 _ _ _) ?_
  let S : Nat → Tensor α := fun t => match t with
    | 0 => t1 ni h
    | t + 1 => t1 B fun b => scalarRec (fun _ => bv na a b) (bv ni h b) (x b) (t + 1)
  refine bind_step (scanM_range _ S _ N fun t ht => ?_) ?_
  · cases t with
    | zero => exact loop_step a h _ ha hi
    | succ t =>
      refine (loop_step a _ _ ha (Or.inr rfl)).trans (congrArg Except.ok (t1_congr rfl fun b hb => ?_))
      simp only [scalarRec]
      rw [bv_self _ hb]
  · exact stack_t1_1 B N (fun t b => scalarRec (fun _ => bv na a b) (bv ni h b) (x b) (t + 1)) hN

/-- Sum of a block row of the augmented matrix. -/
theorem aug_sum (a h : α) (x : Nat → α) (u i : Nat) (hi : i + 1 < u) :
    ∑ w ∈ range u, (if w < 1 then h else x (w - 1)) * (if w ≤ i + 1 then a ^ (i + 1 - w) else 0) =
      scalarRec (fun _ => a) h x (i + 1) := by
  rw [scalarRec_const, ← sum_subset (s₁ := range (i + 1 + 1)) (by intro w; simp; omega)]
  · rw [sum_range_succ']
    simp only [Nat.lt_one_iff, if_true, Nat.zero_le, Nat.sub_zero, Nat.add_eq_zero_iff, one_ne_zero, and_false,
      if_false, Nat.add_sub_cancel]
    rw [add_comm, mul_comm h]
    congr 1
    refine sum_congr rfl fun j hj => ?_
    rw [mem_range] at hj
    rw [if_pos (by omega), mul_comm]
    congr 2
    omega
  · intro w _ hw
    simp only [mem_range, not_lt] at hw
    rw [if_neg (show ¬ w ≤ i + 1 by omega), mul_zero]

/-- The recurrence sampled at block boundaries is again a recurrence. -/
theorem block_rec (a h : α) (x : Nat → α) (u k : Nat) :
    scalarRec (fun _ => a ^ u) h (fun k => ∑ j ∈ range u, x (k * u + j) * a ^ (u - 1 - j)) k =
      scalarRec (fun _ => a) h x (k * u) := by
  induction k with
  | zero => simp [scalarRec]
  | succ k ih =>
    rw [Nat.succ_mul, scalarRec_add (fun _ => a) h x (k * u), ← ih]
    simp only [scalarRec]
    rw [scalarRec_const _ _ (fun j => x (k * u + j)) u]
    congr 1
    exact sum_congr rfl fun j _ => mul_comm (x (k * u + j)) _

theorem pad_mod {N u : Nat} (hu : 0 < u) :
    N + (u - N % u) = (N / u + 1) * u := by
  have h1 := Nat.div_add_mod N u
  have h2 := Nat.mod_lt N hu
  rw [Nat.add_mul, Nat.mul_comm (N / u)]
  omega

/-- `x` padded to whole blocks, in `K` blocks of `u`. -/
theorem padBlocks {B N u : Nat} (x : Nat → Nat → α) (hu : 1 < u) (huN : u < N) :
    ∃ K, 0 < K ∧ K < N ∧ N ≤ K * u ∧ (N % u = 0 → K * u = N) ∧ (N % u ≠ 0 → K * u = N + (u - N % u)) ∧
    (if N % u ≠ 0 then padDim (t2 B N x) 1 0 ((u - N % u : Nat) : Int) 0 else pure (t2 B N x)) =
      .ok (t2 B (K * u) fun b t => if t < N then x b t else 0) := by
  by_cases h : N % u = 0
  · refine ⟨N / u, Nat.div_pos huN.le (by omega), Nat.div_lt_self (by omega) hu, ?_, ?_, ?_, ?_⟩
    · have := Nat.div_add_mod N u
      rw [Nat.mul_comm]; omega
    · intro _; have := Nat.div_add_mod N u
      rw [Nat.mul_comm]; omega
    · intro h'; exact absurd h h'
    · rw [if_neg (by omega), pure_eq_ok]
      refine congrArg Except.ok (t2_congr rfl ?_ fun b t hb ht => by rw [if_pos ht])
      have := Nat.div_add_mod N u
      rw [Nat.mul_comm]; omega
  · have hp := pad_mod (N := N) (u := u) (by omega)
    have hm := Nat.mod_lt N (show u > 0 by omega)
    have hq : 0 < N / u := Nat.div_pos huN.le (by omega)
    have hmul : N / u * 2 ≤ N / u * u := Nat.mul_le_mul_left _ hu
    have hp' := hp
    rw [Nat.add_mul] at hp'
    refine ⟨N / u + 1, by omega, ?_, by omega, by omega, fun _ => hp.symm, ?_⟩
    · omega
    · rw [if_pos h, padDim_t2_1_right, hp]

variable [StarRing α]

theorem linearRecurrenceAux_t0 (u : Int) (fuel : Nat) (c : α) (init x : Tensor α) :
    linearRecurrenceAux u fuel (t0 c) init x = linearRecurrenceAux u fuel (t1 1 fun _ => c) init x := by
  cases fuel with
  | zero => rfl
  | succ fuel =>
    rw [linearRecurrenceAux, linearRecurrenceAux]
    simp only [rank_t0, rank_t1, size_t1_0, expand_s_1, pure_eq_ok, ok_bind, if_true, one_ne_zero, if_false,
      gt_iff_lt, lt_self_iff_false, false_and, and_false, zero_ne_one, true_or, or_true]

theorem linearRecurrenceAux_init_t0 (u : Int) (fuel : Nat) (c : α) (a x : Tensor α) :
    linearRecurrenceAux u fuel a (t0 c) x = linearRecurrenceAux u fuel a (t1 1 fun _ => c) x := by
  cases fuel with
  | zero => rfl
  | succ fuel =>
    rw [linearRecurrenceAux, linearRecurrenceAux]
    simp only [rank_t0, rank_t1, size_t1_0, expand_s_1, pure_eq_ok, ok_bind, if_true, one_ne_zero, if_false,
      gt_iff_lt, lt_self_iff_false, false_and, and_false, zero_ne_one, true_or, or_true]

theorem linearRecurrenceAux_eq (u : Nat) (hu : 0 < u) (fuel : Nat) {B N na ni : Nat} (a h : Nat → α)
    (x : Nat → Nat → α) (ha : na = 1 ∨ na = B) (hi : ni = 1 ∨ ni = B) (hN : 0 < N) (hf : N < fuel) :
    linearRecurrenceAux (u : Int) fuel (t1 na a) (t1 ni h) (t2 B N x) =
      .ok (t2 B N fun b t => scalarRec (fun _ => bv na a b) (bv ni h b) (x b) (t + 1)) := by
  induction fuel generalizing B N na a x with
  | zero => omega
  | succ fuel ih =>
    rw [linearRecurrenceAux]
    refine check_step rfl (check_step (Or.inr rfl) (check_step ?_ ?_))
    · simp only [size_t1_0, size_t2_0]; omega
    refine bind_step (v := t1 na a) (by simp [pure_eq_ok]) ?_
    refine check_step (Or.inr rfl) (check_step ?_ ?_)
    · simp only [size_t1_0, size_t2_0]; omega
    refine bind_step (v := t1 ni h) (by simp [pure_eq_ok]) ?_
    refine check_step (by omega) ?_
    simp only [size_t2_0, size_t2_1, Int.toNat_natCast]
    by_cases hs : u = 1 ∨ u ≥ N
    · rw [if_pos hs]
      exact scalarRecursionLoop_eq a h x ha hi hN
    rw [if_neg hs]
    push Not at hs
    obtain ⟨K, hK0, hKN, hNK, hK1, hK2, hpad⟩ := padBlocks (B := B) x (show 1 < u by omega) hs.2
    have hKu : K * u % u = 0 := Nat.mul_mod_left K u
    refine bind_step hpad ?_
    generalize hxp : (fun (b t : Nat) => if t < N then x b t else 0) = xp
    refine bind_step (v := t3 B K u fun b k j => xp b (k * u + j)) ?_ ?_
    · rw [unflatten_t2_1_m1_c _ _ _ _ hu hKu, Nat.mul_div_cancel _ hu]
    -- the state at block boundaries
    let st : Nat → Nat → α := fun b k => scalarRec (fun _ => bv na a b) (bv ni h b) (xp b) (k * u)
    have hu1 : u - 1 + 1 = u := by omega
    have hcat : (do
        let i1 ← unsqueeze (t1 ni h) 1
        let i2 ← expand i1 [some B, some 1]
        cat2 i2 (t2 B K fun b k => st b (k + 1)) 1) = Except.ok (t2 B (K + 1) fun b k => st b k) := by
      refine bind_step (unsqueeze_t1_1 _ _) ?_
      refine bind_step (v := t2 B 1 fun b _ => bv ni h b) ?_ ?_
      · rcases hi with rfl | rfl
        · rw [expand_11_n1]; rfl
        · rw [expand_n1_n1]
          exact congrArg Except.ok (t2_congr rfl rfl fun b j hb _ => (bv_self h hb).symm)
      · rw [cat2_t2_1]
        refine congrArg Except.ok (t2_congr rfl (by omega) fun b k hb hk => ?_)
        split
        · rw [show k = 0 by omega]; simp [st, scalarRec]
        · rw [Nat.sub_add_cancel (by omega)]
    have htail : (do
        let fin ← slice (t2 B (K + 1) fun b k => st b k) 1 (some 1) none
        let fin ← unsqueeze fin (-1)
        let output ← cat2 (t3 B K (u - 1) fun b k i =>
          scalarRec (fun _ => bv na a b) (bv ni h b) (xp b) (k * u + (i + 1))) fin 2
        let output ← flatten output 1 2
        if N % u ≠ 0 then slice output 1 none (some (-((u - N % u : Nat) : Int)))
        else pure output) =
        Except.ok (t2 B N fun b t => scalarRec (fun _ => bv na a b) (bv ni h b) (x b) (t + 1)) := by
      refine bind_step (v := t2 B K fun b k => st b (k + 1)) ?_ ?_
      · tens1
        refine congrArg Except.ok (t2_congr rfl (by omega) fun b k hb hk => ?_)
        rw [show min 1 (K + 1) = 1 by omega]
      refine bind_step (v := t3 B K 1 fun b k _ => st b (k + 1)) (by tens1) ?_
      refine bind_step (v := t3 B K u fun b k i =>
        scalarRec (fun _ => bv na a b) (bv ni h b) (xp b) (k * u + (i + 1))) ?_ ?_
      · rw [cat2_t3_2]
        refine congrArg Except.ok (t3_congr rfl rfl hu1 fun b k i hb hk hi => ?_)
        split
        · rfl
        · rw [show i + 1 = u by omega]; simp only [st]; rw [Nat.succ_mul]
      refine bind_step (v := t2 B (K * u) fun b t =>
        scalarRec (fun _ => bv na a b) (bv ni h b) (xp b) (t + 1)) ?_ ?_
      · rw [flatten_t3_1_2]
        refine congrArg Except.ok (t2_congr rfl rfl fun b t hb ht => ?_)
        rw [← Nat.add_assoc, Nat.mul_comm, Nat.div_add_mod]
      have hfin : ∀ b t, t < N → scalarRec (fun _ => bv na a b) (bv ni h b) (xp b) (t + 1) =
          scalarRec (fun _ => bv na a b) (bv ni h b) (x b) (t + 1) := by
        intro b t ht
        refine scalarRec_congr rfl (fun _ _ => rfl) fun j hj => ?_
        rw [← hxp]
        simp only
        rw [if_pos (by omega)]
      split
      · rename_i hm
        rw [slice_t2_1, pyStop_neg _ _ (by have := Nat.mod_lt N hu; omega), pyStart_none, hK2 hm]
        refine congrArg Except.ok (t2_congr rfl (by omega) fun b t hb ht => hfin b t (by omega))
      · rename_i hm
        rw [hK1 (by omega), pure_eq_ok]
        exact congrArg Except.ok (t2_congr rfl rfl fun b t hb ht => hfin b t ht)
    by_cases hna : na = 1
    · subst hna
      refine bind_step (v := t1 u fun _ => a 0) (by rw [if_pos (numel_t1 _ _)]; tens1) ?_
      refine bind_step (v := t1 u fun i => a 0 ^ (i + 1)) (by tens1; simp) ?_
      refine bind_step (v := t0 (a 0 ^ u)) (by tens1; rw [hu1]) ?_
      refine bind_step (v := t1 (u - 1) fun i => a 0 ^ (i + 1)) (by tens1; rfl) ?_
      refine bind_step (v := t1 (u - 1) fun i => a 0 ^ (u - 1 - 1 - i + 1)) (by tens1) ?_
      refine bind_step (v := t1 u fun i => a 0 ^ (u - 1 - i)) ?_ ?_
      · rw [padDim_t1_n1_right]
        refine congrArg Except.ok (t1_congr hu1 fun i hi => ?_)
        split
        · congr 1; omega
        · rw [show u - 1 - i = 0 by omega, pow_zero]
      refine bind_step (v := t2 B K fun b k => ∑ w ∈ range u, xp b (k * u + w) * a 0 ^ (u - 1 - w))
        (by rw [if_pos (rank_t1 _ _), matmul_nmp_p]) ?_
      refine bind_step (v := t2 B K fun b k => st b (k + 1)) ?_ ?_
      · rw [linearRecurrenceAux_t0, ih _ _ (Or.inl rfl) hi hK0 (by omega)]
        refine congrArg Except.ok (t2_congr rfl rfl fun b k hb hk => ?_)
        simp only [st, ← block_rec, bv_one]
      rw [bind_assoc3 hcat]
      refine bind_step (v := t2 B K fun b k => st b k) (by tens1; rfl) ?_
      refine bind_step (v := t3 B K 1 fun b k _ => st b k) (by tens1) ?_
      refine bind_step (v := t3 B K (u - 1) fun b k j => xp b (k * u + j)) (by tens1; rfl) ?_
      refine bind_step (v := t3 B K u fun b k w => if w < 1 then st b k else xp b (k * u + (w - 1)))
        (by rw [cat2_t3_2, show 1 + (u - 1) = u by omega]) ?_
      refine bind_step (v := t1 (u + (u - 2)) fun i => if i < u then a 0 ^ (u - 1 - i) else 0) (by tens1) ?_
      refine bind_step (v := t2 (u - 1) u fun i w => if i + w < u then a 0 ^ (u - 1 - (i + w)) else 0) ?_ ?_
      · rw [unfold_t1_n1 _ _ _ (by omega), show u + (u - 2) - u + 1 = u - 1 by omega]
      refine bind_step (v := t2 (u - 1) u fun i w => if w ≤ i + 1 then a 0 ^ (i + 1 - w) else 0) ?_ ?_
      · rw [flip_t2_n2]
        refine congrArg Except.ok (t2_congr rfl rfl fun i w hi hw => ?_)
        by_cases hw' : w ≤ i + 1
        · rw [if_pos hw', if_pos (by omega)]; congr 1; omega
        · rw [if_neg hw', if_neg (by omega)]
      refine bind_step (transpose_t2_n2_n1 _ _ _) ?_
      refine bind_step (v := t3 B K (u - 1) fun b k i =>
          scalarRec (fun _ => bv 1 a b) (bv ni h b) (xp b) (k * u + (i + 1))) ?_ htail
      rw [matmul_nmp_pq]
      refine congrArg Except.ok (t3_congr rfl rfl rfl fun b k i hb hk hi => ?_)
      rw [aug_sum (a 0) _ (fun j => xp b (k * u + j)) u i (by omega), scalarRec_add _ _ (xp b) (k * u)]
      rfl
    · obtain rfl : na = B := by tauto
      refine bind_step (v := t2 na u fun b _ => a b) ?_ ?_
      · rw [if_neg (by rwa [numel_t1])]
        refine bind_step (unsqueeze_t1_1 _ _) ?_
        rw [expand_n1_Xm]
      refine bind_step (v := t2 na u fun b i => a b ^ (i + 1)) (by tens1; simp) ?_
      refine bind_step (v := t1 na fun b => (a b ^ u)) (by tens1; rw [hu1]) ?_
      refine bind_step (v := t2 na (u - 1) fun b i => a b ^ (i + 1)) (by tens1; rfl) ?_
      refine bind_step (v := t2 na (u - 1) fun b i => a b ^ (u - 1 - 1 - i + 1)) (by tens1) ?_
      refine bind_step (v := t2 na u fun b i => a b ^ (u - 1 - i)) ?_ ?_
      · rw [padDim_t2_n1_right]
        refine congrArg Except.ok (t2_congr rfl hu1 fun b i hb hi => ?_)
        split
        · congr 1; omega
        · rw [show u - 1 - i = 0 by omega, pow_zero]
      refine bind_step (v := t2 na K fun b k => ∑ w ∈ range u, xp b (k * u + w) * a b ^ (u - 1 - w)) ?_ ?_
      · rw [if_neg (by rw [rank_t2]; omega)]
        refine bind_step (unsqueeze_t2_1 _ _ _) ?_
        rw [conj, map_t3, vecdot_nmp_n1p]
        simp only [star_star]
      refine bind_step (v := t2 na K fun b k => st b (k + 1)) ?_ ?_
      · rw [ih _ _ (Or.inr rfl) hi hK0 (by omega)]
        refine congrArg Except.ok (t2_congr rfl rfl fun b k hb hk => ?_)
        simp only [st, ← block_rec, bv_self _ hb]
      rw [bind_assoc3 hcat]
      refine bind_step (v := t2 na K fun b k => st b k) (by tens1; rfl) ?_
      refine bind_step (v := t3 na K 1 fun b k _ => st b k) (by tens1) ?_
      refine bind_step (v := t3 na K (u - 1) fun b k j => xp b (k * u + j)) (by tens1; rfl) ?_
      refine bind_step (v := t3 na K u fun b k w => if w < 1 then st b k else xp b (k * u + (w - 1)))
        (by rw [cat2_t3_2, show 1 + (u - 1) = u by omega]) ?_
      refine bind_step (v := t2 na (u + (u - 2)) fun b i => if i < u then a b ^ (u - 1 - i) else 0)
        (by tens1) ?_
      refine bind_step (v := t3 na (u - 1) u fun b i w =>
        if i + w < u then a b ^ (u - 1 - (i + w)) else 0) ?_ ?_
      · rw [unfold_t2_n1 _ _ _ _ (by omega), show u + (u - 2) - u + 1 = u - 1 by omega]
      refine bind_step (v := t3 na (u - 1) u fun b i w => if w ≤ i + 1 then a b ^ (i + 1 - w) else 0) ?_ ?_
      · rw [flip_t3_n2]
        refine congrArg Except.ok (t3_congr rfl rfl rfl fun b i w hb hi hw => ?_)
        by_cases hw' : w ≤ i + 1
        · rw [if_pos hw', if_pos (by omega)]; congr 1; omega
        · rw [if_neg hw', if_neg (by omega)]
      refine bind_step (transpose_t3_n2_n1 _ _ _ _) ?_
      refine bind_step (v := t3 na K (u - 1) fun b k i =>
          scalarRec (fun _ => bv na a b) (bv ni h b) (xp b) (k * u + (i + 1))) ?_ htail
      rw [matmul_nmp_npq]
      refine congrArg Except.ok (t3_congr rfl rfl rfl fun b k i hb hk hi => ?_)
      rw [aug_sum (a b) _ (fun j => xp b (k * u + j)) u i (by omega), scalarRec_add _ _ (xp b) (k * u)]
      simp only [st, bv_self _ hb]

end Phil.Lti
