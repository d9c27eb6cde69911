import Verif.Proof.LtiRecur
import Verif.Model.LpvRecur

/-! # Correctness of the model of philtorch/lpv/recur.py -/

namespace Phil.Lpv
open Torch Torch.Tensor Finset Spec Phil.Lti
variable {α : Type} [CommRing α]

theorem zip_range_map {β γ : Type} (f : Nat → β) (g : Nat → γ) (n : Nat) :
    ((List.range n).map f).zip ((List.range n).map g) = (List.range n).map fun t => (f t, g t) := by
  rw [List.zip_map', ]

theorem prod_flip (f : Nat → α) (n j : Nat) (hj : j ≤ n) :
    ∏ w ∈ range (n - j), f (n - w) = ∏ i ∈ Ico (j + 1) (n + 1), f i := by
  rw [prod_Ico_eq_prod_range, ← prod_range_reflect]
  rw [show n + 1 - (j + 1) = n - j by omega]
  refine prod_congr rfl fun w hw => ?_
  rw [mem_range] at hw
  congr 1
  omega

/-- The recurrence sampled at block boundaries is again a recurrence. -/
theorem block_rec (a : Nat → α) (h : α) (x : Nat → α) (u k : Nat) :
    scalarRec (fun k => ∏ j ∈ range u, a (k * u + j)) h
        (fun k => ∑ j ∈ range u, x (k * u + j) * ∏ i ∈ Ico (j + 1) u, a (k * u + i)) k =
      scalarRec a h x (k * u) := by
  induction k with
  | zero => simp [scalarRec]
  | succ k ih =>
    rw [Nat.succ_mul, scalarRec_add a h x (k * u), ← ih]
    rw [scalarRec_var (fun j => a (k * u + j)) _ (fun j => x (k * u + j)) u, scalarRec]
    congr 1
    exact sum_congr rfl fun j _ => mul_comm (x (k * u + j)) _

/-- Loop for a coefficient sequence of shape `(N,)`. -/
theorem scalarRecursionLoop_eq1 {B N ni : Nat} (a : Nat → α) (h : Nat → α) (x : Nat → Nat → α)
    (hi : ni = 1 ∨ ni = B) (hN : 0 < N) :
    scalarRecursionLoop (t1 N a) (t1 ni h) (t2 B N x) =
      .ok (t2 B N fun b t => scalarRec a (bv ni h b) (x b) (t + 1)) := by
  unfold scalarRecursionLoop
  refine bind_step (unbind_t1_n1 _ _) (bind_step (unbind_t2_n1 _ _ _) ?_)
  rw [zip_range_map]
  let S : Nat → Tensor α := fun t => match t with
    | 0 => t1 ni h
    | t + 1 => t1 B fun b => scalarRec a (bv ni h b) (x b) (t + 1)
  refine bind_step (scanM_range _ S _ N fun t ht => ?_) ?_
  · cases t with
    | zero =>
      simp only [S, addcmul, mul, add, tens]
      rcases hi with rfl | rfl <;> simp only [tens] <;>
        refine congrArg Except.ok (t1_congr rfl fun b hb => ?_) <;>
        simp [bv_one, bv_self _ hb, scalarRec] <;> ring
    | succ t =>
      simp only [S, addcmul, mul, add, tens]
      refine congrArg Except.ok (t1_congr rfl fun b hb => ?_)
      simp only [scalarRec]; ring
  · exact stack_t1_n1 B N (fun t b => scalarRec a (bv ni h b) (x b) (t + 1)) hN

/-- Loop for a coefficient sequence of shape `(1, N)` or `(B, N)`. -/
theorem scalarRecursionLoop_eq2 {B N ni na : Nat} (a : Nat → Nat → α) (h : Nat → α) (x : Nat → Nat → α)
    (ha : na = 1 ∨ na = B) (hi : ni = 1 ∨ ni = B) (hN : 0 < N) :
    scalarRecursionLoop (t2 na N a) (t1 ni h) (t2 B N x) =
      .ok (t2 B N fun b t => scalarRec (fun t => bv na (fun b => a b t) b) (bv ni h b) (x b) (t + 1)) := by
  unfold scalarRecursionLoop
  refine bind_step (unbind_t2_n1 _ _ _) (bind_step (unbind_t2_n1 _ _ _) ?_)
  rw [zip_range_map]
  let S : Nat → Tensor α := fun t => match t with
    | 0 => t1 ni h
    | t + 1 => t1 B fun b => scalarRec (fun t => bv na (fun b => a b t) b) (bv ni h b) (x b) (t + 1)
  refine bind_step (scanM_range _ S _ N fun t ht => ?_) ?_
  · cases t with
    | zero =>
      simp only [S, addcmul, mul, add]
      rcases ha with rfl | rfl <;> rcases hi with rfl | rfl <;> simp only [tens] <;>
        refine congrArg Except.ok (t1_congr rfl fun b hb => ?_) <;>
        simp [bv_one, bv_self _ hb, scalarRec] <;> ring
    | succ t =>
      simp only [S, addcmul, mul, add]
      rcases ha with rfl | rfl <;> simp only [tens] <;>
        refine congrArg Except.ok (t1_congr rfl fun b hb => ?_) <;>
        simp only [scalarRec, bv_one, bv_self _ hb] <;> ring
  · exact stack_t1_n1 B N (fun t b => scalarRec (fun t => bv na (fun b => a b t) b) (bv ni h b) (x b) (t + 1)) hN

/-- The inner loop over the positions in a block, coefficients of shape `(K, N)`. -/
theorem scalarRecursionLoop_blk1 {B K N : Nat} (a : Nat → Nat → α) (h : Nat → Nat → α)
    (x : Nat → Nat → Nat → α) (hN : 0 < N) :
    scalarRecursionLoop (t2 K N a) (t2 B K h) (t3 B K N x) =
      .ok (t3 B K N fun b k t => scalarRec (a k) (h b k) (x b k) (t + 1)) := by
  unfold scalarRecursionLoop
  refine bind_step (unbind_t2_n1 _ _ _) (bind_step (unbind_t3_n1 _ _ _ _) ?_)
  rw [zip_range_map]
  let S : Nat → Tensor α := fun t => t2 B K fun b k => scalarRec (a k) (h b k) (x b k) t
  refine bind_step (scanM_range _ S _ N fun t ht => ?_) ?_
  · simp only [S, addcmul, mul, add, tens]
    refine congrArg Except.ok (t2_congr rfl rfl fun b k hb hk => ?_)
    simp only [scalarRec]; ring
  · exact stack_t2_n1 B K N (fun t b k => scalarRec (a k) (h b k) (x b k) (t + 1)) hN

/-- The inner loop over the positions in a block, coefficients of shape `(1, K, N)` or `(B, K, N)`. -/
theorem scalarRecursionLoop_blk2 {B K N na : Nat} (a : Nat → Nat → Nat → α) (h : Nat → Nat → α)
    (x : Nat → Nat → Nat → α) (ha : na = 1 ∨ na = B) (hN : 0 < N) :
    scalarRecursionLoop (t3 na K N a) (t2 B K h) (t3 B K N x) =
      .ok (t3 B K N fun b k t => scalarRec (fun t => bv na (fun b => a b k t) b) (h b k) (x b k) (t + 1)) := by
  unfold scalarRecursionLoop
  refine bind_step (unbind_t3_n1 _ _ _ _) (bind_step (unbind_t3_n1 _ _ _ _) ?_)
  rw [zip_range_map]
  let S : Nat → Tensor α := fun t => t2 B K fun b k =>
    scalarRec (fun t => bv na (fun b => a b k t) b) (h b k) (x b k) t
  refine bind_step (scanM_range _ S _ N fun t ht => ?_) ?_
  · simp only [S, addcmul, mul, add]
    rcases ha with rfl | rfl <;> simp only [tens] <;>
      refine congrArg Except.ok (t2_congr rfl rfl fun b k hb hk => ?_) <;>
      simp only [scalarRec, bv_one, bv_self _ hb] <;> ring
  · exact stack_t2_n1 B K N
      (fun t b k => scalarRec (fun t => bv na (fun b => a b k t) b) (h b k) (x b k) (t + 1)) hN

/-- Prepending the initial state to the block-boundary states. -/
theorem cat_initials {B K ni : Nat} (h : Nat → α) (st : Nat → Nat → α) (hi : ni = 1 ∨ ni = B)
    (h0 : ∀ b, st b 0 = bv ni h b) :
    (do
      let i1 ← unsqueeze (t1 ni h) 1
      let i2 ← expand i1 [some B, some 1]
      cat2 i2 (t2 B K fun b k => st b (k + 1)) 1) = Except.ok (t2 B (K + 1) fun b k => st b k) := by
  refine bind_step (unsqueeze_t1_1 _ _) ?_
  refine bind_step (v := t2 B 1 fun b _ => bv ni h b) ?_ ?_
  · rcases hi with rfl | rfl
    · rw [expand_11_n1]; rfl
    · rw [expand_n1_n1]
      exact congrArg Except.ok (t2_congr rfl rfl fun b j hb _ => (bv_self h hb).symm)
  · rw [cat2_t2_1]
    refine congrArg Except.ok (t2_congr rfl (by omega) fun b k hb hk => ?_)
    split
    · rw [show k = 0 by omega, h0]
    · rw [Nat.sub_add_cancel (by omega)]

/-- Appending the block-boundary states, flattening and removing the padding. -/
theorem block_tail {B K N u : Nat} (st out : Nat → Nat → α) (o : Nat → Nat → Nat → α) (hu : 0 < u)
    (hK1 : N % u = 0 → K * u = N) (hK2 : N % u ≠ 0 → K * u = N + (u - N % u))
    (hst : ∀ b k, k < K → st b (k + 1) = out b (k * u + u - 1))
    (ho : ∀ b k i, b < B → k < K → i < u - 1 → o b k i = out b (k * u + i)) :
    (do
      let fin ← slice (t2 B (K + 1) fun b k => st b k) 1 (some 1) none
      let fin ← unsqueeze fin (-1)
      let output ← cat2 (t3 B K (u - 1) o) fin 2
      let output ← flatten output 1 2
      if N % u ≠ 0 then slice output 1 none (some (-((u - N % u : Nat) : Int)))
      else pure output) =
    Except.ok (t2 B N fun b t => out b t) := by
  have hu1 : u - 1 + 1 = u := by omega
  refine bind_step (v := t2 B K fun b k => st b (k + 1)) ?_ ?_
  · tens1
    refine congrArg Except.ok (t2_congr rfl (by omega) fun b k hb hk => ?_)
    rw [show min 1 (K + 1) = 1 by omega]
  refine bind_step (v := t3 B K 1 fun b k _ => st b (k + 1)) (by tens1) ?_
  refine bind_step (v := t3 B K u fun b k i => out b (k * u + i)) ?_ ?_
  · rw [cat2_t3_2]
    refine congrArg Except.ok (t3_congr rfl rfl hu1 fun b k i hb hk hi => ?_)
    split
    · exact ho b k i hb hk (by omega)
    · rw [hst b k hk]; congr 1; omega
  refine bind_step (v := t2 B (K * u) fun b t => out b t) ?_ ?_
  · rw [flatten_t3_1_2]
    refine congrArg Except.ok (t2_congr rfl rfl fun b t hb ht => ?_)
    rw [Nat.mul_comm, Nat.div_add_mod]
  split
  · rename_i hm
    rw [slice_t2_1, pyStop_neg _ _ (by have := Nat.mod_lt N hu; omega), pyStart_none, hK2 hm]
    exact congrArg Except.ok (t2_congr rfl (by omega) fun b t hb ht => rfl)
  · rename_i hm
    rw [hK1 (by omega), pure_eq_ok]

theorem padA1 {N u K : Nat} (a : Nat → α) (hK1 : N % u = 0 → K * u = N)
    (hK2 : N % u ≠ 0 → K * u = N + (u - N % u)) :
    (if N % u ≠ 0 then padDim (t1 N a) (-1) 0 ((u - N % u : Nat) : Int) 0 else pure (t1 N a)) =
      .ok (t1 (K * u) fun t => if t < N then a t else 0) := by
  split
  · rename_i h
    rw [padDim_t1_n1_right, hK2 h]
  · rename_i h
    rw [pure_eq_ok, hK1 (by omega)]
    exact congrArg Except.ok (t1_congr rfl fun t ht => by rw [if_pos ht])

theorem padA2 {B N u K : Nat} (a : Nat → Nat → α) (hK1 : N % u = 0 → K * u = N)
    (hK2 : N % u ≠ 0 → K * u = N + (u - N % u)) :
    (if N % u ≠ 0 then padDim (t2 B N a) (-1) 0 ((u - N % u : Nat) : Int) 0 else pure (t2 B N a)) =
      .ok (t2 B (K * u) fun b t => if t < N then a b t else 0) := by
  split
  · rename_i h
    rw [padDim_t2_n1_right, hK2 h]
  · rename_i h
    rw [pure_eq_ok, hK1 (by omega)]
    exact congrArg Except.ok (t2_congr rfl rfl fun b t hb ht => by rw [if_pos ht])

variable [StarRing α]

theorem linearRecurrenceAux_init_t0 (u : Int) (fuel : Nat) (c : α) (a x : Tensor α) :
    linearRecurrenceAux u fuel a (t0 c) x = linearRecurrenceAux u fuel a (t1 1 fun _ => c) x := by
  cases fuel with
  | zero => rfl
  | succ fuel =>
    rw [linearRecurrenceAux, linearRecurrenceAux]
    simp only [rank_t0, rank_t1, size_t1_0, expand_s_1, pure_eq_ok, ok_bind, if_true, one_ne_zero, if_false,
      gt_iff_lt, lt_self_iff_false, false_and, and_false, zero_ne_one, true_or, or_true]

theorem linearRecurrenceAux_eq1 (u : Nat) (hu : 0 < u) (fuel : Nat) {B N ni : Nat} (a h : Nat → α)
    (x : Nat → Nat → α) (hi : ni = 1 ∨ ni = B) (hN : 0 < N) (hf : N < fuel) :
    linearRecurrenceAux (u : Int) fuel (t1 N a) (t1 ni h) (t2 B N x) =
      .ok (t2 B N fun b t => scalarRec a (bv ni h b) (x b) (t + 1)) := by
  induction fuel generalizing B N a x with
  | zero => omega
  | succ fuel ih =>
    rw [linearRecurrenceAux]
    refine check_step rfl (check_step (Or.inl rfl) (check_step ?_ ?_))
    · simp only [size_t1_0, size_t2_1]; omega
    refine check_step (Or.inr rfl) (check_step ?_ ?_)
    · simp only [size_t1_0, size_t2_0]; omega
    refine bind_step (v := t1 ni h) (by simp [pure_eq_ok]) ?_
    refine check_step (by omega) ?_
    simp only [size_t2_0, size_t2_1, Int.toNat_natCast]
    by_cases hs : u = 1 ∨ u ≥ N
    · rw [if_pos hs]
      exact scalarRecursionLoop_eq1 a h x hi hN
    rw [if_neg hs]
    push Not at hs
    obtain ⟨K, hK0, hKN, hNK, hK1, hK2, -⟩ := padBlocks (B := B) x (show 1 < u by omega) hs.2
    have hKu : K * u % u = 0 := Nat.mul_mod_left K u
    have hu1 : u - 1 + 1 = u := by omega
    refine bind_step (padA2 x hK1 hK2) (bind_step (padA1 a hK1 hK2) ?_)
    generalize hxp : (fun (b t : Nat) => if t < N then x b t else 0) = xp
    generalize hap : (fun (t : Nat) => if t < N then a t else 0) = ap
    refine bind_step (v := t3 B K u fun b k j => xp b (k * u + j)) ?_ ?_
    · rw [unflatten_t2_1_m1_c _ _ _ _ hu hKu, Nat.mul_div_cancel _ hu]
    refine bind_step (v := t2 K u fun k j => ap (k * u + j)) ?_ ?_
    · rw [unflatten_t1_n1_m1_c _ _ _ hu hKu, Nat.mul_div_cancel _ hu]
    let st : Nat → Nat → α := fun b k => scalarRec ap (bv ni h b) (xp b) (k * u)
    refine bind_step (v := t2 K (u - 1) fun k j => ap (k * u + (j + 1))) ?_ ?_
    · tens1; rw [show min 1 u = 1 by omega]
    refine bind_step (v := t2 K (u - 1) fun k j => ap (k * u + (u - 1 - j))) ?_ ?_
    · tens1
      refine congrArg Except.ok (t2_congr rfl rfl fun k j hk hj => ?_)
      congr 2; omega
    refine bind_step (v := t2 K (u - 1) fun k j => ∏ w ∈ range (j + 1), ap (k * u + (u - 1 - w))) (by tens1) ?_
    refine bind_step (v := t2 K (u - 1) fun k j => ∏ i ∈ Ico (j + 1) u, ap (k * u + i)) ?_ ?_
    · tens1
      refine congrArg Except.ok (t2_congr rfl rfl fun k j hk hj => ?_)
      rw [show u - 1 - 1 - j + 1 = u - 1 - j by omega, prod_flip (fun i => ap (k * u + i)) (u - 1) j (by omega), hu1]
    refine bind_step (v := t1 K fun k => ∏ i ∈ Ico 1 u, ap (k * u + i)) (by tens1) ?_
    refine bind_step (v := t1 K fun k => ap (k * u)) (by tens1; rfl) ?_
    refine bind_step (v := t1 K fun k => ∏ j ∈ range u, ap (k * u + j)) ?_ ?_
    · rw [mul]; tens1
      refine congrArg Except.ok (t1_congr rfl fun k hk => ?_)
      rw [range_eq_Ico, prod_eq_prod_Ico_succ_bot hu, mul_comm, Nat.add_zero]
    refine bind_step (v := t2 K u fun k j => ∏ i ∈ Ico (j + 1) u, ap (k * u + i)) ?_ ?_
    · rw [padDim_t2_n1_right]
      refine congrArg Except.ok (t2_congr rfl hu1 fun k j hk hj => ?_)
      split
      · rfl
      · rw [Ico_eq_empty (by omega), prod_empty]
    refine bind_step (v := t2 B K fun b k => ∑ j ∈ range u, xp b (k * u + j) * ∏ i ∈ Ico (j + 1) u, ap (k * u + i)) ?_ ?_
    · rw [conj, map_t3, vecdot_nmp_mp]; simp only [star_star]
    refine bind_step (v := t2 B K fun b k => st b (k + 1)) ?_ ?_
    · rw [ih _ _ hi hK0 (by omega)]
      refine congrArg Except.ok (t2_congr rfl rfl fun b k hb hk => ?_)
      simp only [st]; rw [← block_rec]
    rw [bind_assoc3 (cat_initials h st hi (fun b => by simp [st, scalarRec]))]
    refine bind_step (v := t2 K (u - 1) fun k j => ap (k * u + j)) (by tens1; rfl) ?_
    refine bind_step (v := t2 B K fun b k => st b k) (by tens1; rfl) ?_
    refine bind_step (v := t3 B K (u - 1) fun b k j => xp b (k * u + j)) (by tens1; rfl) ?_
    refine bind_step (scalarRecursionLoop_blk1 _ _ _ (by omega)) ?_
    refine (block_tail st (fun b t => scalarRec ap (bv ni h b) (xp b) (t + 1)) _ hu hK1 hK2 ?_ ?_).trans ?_
    · intro b k hk
      simp only [st]; rw [Nat.succ_mul, Nat.sub_add_cancel (by omega)]
    · intro b k i hb hk hi
      rw [Nat.add_assoc, scalarRec_add _ _ (xp b) (k * u)]
    · refine congrArg Except.ok (t2_congr rfl rfl fun b t hb ht => scalarRec_congr rfl ?_ ?_)
      · intro j hj; rw [← hap]; simp only; rw [if_pos (by omega)]
      · intro j hj; rw [← hxp]; simp only; rw [if_pos (by omega)]

theorem linearRecurrenceAux_eq2 (u : Nat) (hu : 0 < u) (fuel : Nat) {B N ni na : Nat} (a : Nat → Nat → α) (h : Nat → α)
    (x : Nat → Nat → α) (ha : na = 1 ∨ na = B) (hi : ni = 1 ∨ ni = B) (hN : 0 < N) (hf : N < fuel) :
    linearRecurrenceAux (u : Int) fuel (t2 na N a) (t1 ni h) (t2 B N x) =
      .ok (t2 B N fun b t => scalarRec (fun t => bv na (fun b => a b t) b) (bv ni h b) (x b) (t + 1)) := by
  induction fuel generalizing B N a x with
  | zero => omega
  | succ fuel ih =>
    rw [linearRecurrenceAux]
    refine check_step rfl (check_step (Or.inr rfl) (check_step ?_ ?_))
    · simp only [rank_t2]; omega
    refine check_step (Or.inr rfl) (check_step ?_ ?_)
    · simp only [size_t1_0, size_t2_0]; omega
    refine bind_step (v := t1 ni h) (by simp [pure_eq_ok]) ?_
    refine check_step (by omega) ?_
    simp only [size_t2_0, size_t2_1, Int.toNat_natCast]
    by_cases hs : u = 1 ∨ u ≥ N
    · rw [if_pos hs]
      exact scalarRecursionLoop_eq2 a h x ha hi hN
    rw [if_neg hs]
    push Not at hs
    obtain ⟨K, hK0, hKN, hNK, hK1, hK2, -⟩ := padBlocks (B := B) x (show 1 < u by omega) hs.2
    have hKu : K * u % u = 0 := Nat.mul_mod_left K u
    have hu1 : u - 1 + 1 = u := by omega
    refine bind_step (padA2 x hK1 hK2) (bind_step (padA2 a hK1 hK2) ?_)
    generalize hxp : (fun (b t : Nat) => if t < N then x b t else 0) = xp
    generalize hap : (fun (b t : Nat) => if t < N then a b t else 0) = ap
    refine bind_step (v := t3 B K u fun b k j => xp b (k * u + j)) ?_ ?_
    · rw [unflatten_t2_1_m1_c _ _ _ _ hu hKu, Nat.mul_div_cancel _ hu]
    refine bind_step (v := t3 na K u fun b k j => ap b (k * u + j)) ?_ ?_
    · rw [unflatten_t2_n1_m1_c _ _ _ _ hu hKu, Nat.mul_div_cancel _ hu]
    let av : Nat → Nat → α := fun b t => bv na (fun b => ap b t) b
    let st : Nat → Nat → α := fun b k => scalarRec (av b) (bv ni h b) (xp b) (k * u)
    refine bind_step (v := t3 na K (u - 1) fun b k j => ap b (k * u + (j + 1))) ?_ ?_
    · tens1; rw [show min 1 u = 1 by omega]
    refine bind_step (v := t3 na K (u - 1) fun b k j => ap b (k * u + (u - 1 - j))) ?_ ?_
    · tens1
      refine congrArg Except.ok (t3_congr rfl rfl rfl fun b k j hb hk hj => ?_)
      congr 2; omega
    refine bind_step (v := t3 na K (u - 1) fun b k j => ∏ w ∈ range (j + 1), ap b (k * u + (u - 1 - w)))
      (by tens1) ?_
    refine bind_step (v := t3 na K (u - 1) fun b k j => ∏ i ∈ Ico (j + 1) u, ap b (k * u + i)) ?_ ?_
    · tens1
      refine congrArg Except.ok (t3_congr rfl rfl rfl fun b k j hb hk hj => ?_)
      rw [show u - 1 - 1 - j + 1 = u - 1 - j by omega, prod_flip (fun i => ap b (k * u + i)) (u - 1) j (by omega),
        hu1]
    refine bind_step (v := t2 na K fun b k => ∏ i ∈ Ico 1 u, ap b (k * u + i)) (by tens1) ?_
    refine bind_step (v := t2 na K fun b k => ap b (k * u)) (by tens1; rfl) ?_
    refine bind_step (v := t2 na K fun b k => ∏ j ∈ range u, ap b (k * u + j)) ?_ ?_
    · rw [mul]; tens1
      refine congrArg Except.ok (t2_congr rfl rfl fun b k hb hk => ?_)
      rw [range_eq_Ico, prod_eq_prod_Ico_succ_bot hu, mul_comm, Nat.add_zero]
    refine bind_step (v := t3 na K u fun b k j => ∏ i ∈ Ico (j + 1) u, ap b (k * u + i)) ?_ ?_
    · rw [padDim_t3_n1_right]
      refine congrArg Except.ok (t3_congr rfl rfl hu1 fun b k j hb hk hj => ?_)
      split
      · rfl
      · rw [Ico_eq_empty (by omega), prod_empty]
    refine bind_step (v := t2 B K fun b k =>
      ∑ j ∈ range u, xp b (k * u + j) * ∏ i ∈ Ico (j + 1) u, av b (k * u + i)) ?_ ?_
    · rw [conj, map_t3]
      rcases ha with rfl | rfl
      · rw [vecdot_nmp_1mp]; simp only [star_star, av, bv_one]
      · rw [vecdot_nmp_nmp]
        refine congrArg Except.ok (t2_congr rfl rfl fun b k hb hk => ?_)
        simp only [star_star, av, bv_self _ hb]
    refine bind_step (v := t2 B K fun b k => st b (k + 1)) ?_ ?_
    · rw [ih _ _ ha hi hK0 (by omega)]
      refine congrArg Except.ok (t2_congr rfl rfl fun b k hb hk => ?_)
      simp only [st]; rw [← block_rec]
      congr 1
      funext k
      simp only [av, bv]
      split <;> rfl
    rw [bind_assoc3 (cat_initials h st hi (fun b => by simp [st, scalarRec]))]
    refine bind_step (v := t3 na K (u - 1) fun b k j => ap b (k * u + j)) (by tens1; rfl) ?_
    refine bind_step (v := t2 B K fun b k => st b k) (by tens1; rfl) ?_
    refine bind_step (v := t3 B K (u - 1) fun b k j => xp b (k * u + j)) (by tens1; rfl) ?_
    refine bind_step (scalarRecursionLoop_blk2 _ _ _ ha (by omega)) ?_
    refine (block_tail st (fun b t => scalarRec (av b) (bv ni h b) (xp b) (t + 1)) _ hu hK1 hK2 ?_ ?_).trans ?_
    · intro b k hk
      simp only [st]; rw [Nat.succ_mul, Nat.sub_add_cancel (by omega)]
    · intro b k i hb hk hi
      rw [Nat.add_assoc, scalarRec_add _ _ (xp b) (k * u)]
    · refine congrArg Except.ok (t2_congr rfl rfl fun b t hb ht => scalarRec_congr rfl ?_ ?_)
      · intro j hj; simp only [av]; rw [← hap]; simp only [if_pos (show j < N by omega)]
      · intro j hj; rw [← hxp]; simp only; rw [if_pos (by omega)]

end Phil.Lpv
