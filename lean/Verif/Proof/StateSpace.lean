import Verif.Proof.LpvSsm
import Verif.Model.LpvStateSpace
import Verif.Spec.StateSpace

/-! # Correctness of the models of `state_space` (time-invariant and time-varying) -/

namespace Phil.Lti
open Torch Torch.Tensor Finset Spec
variable {α : Type} [CommRing α] [StarRing α]
set_option linter.unusedSectionVars false

theorem conj_t1 (n : Nat) (f : Nat → α) : conj (t1 n f) = t1 n fun i => star (f i) := map_t1 _ _ _
theorem conj_t2 (n m : Nat) (f : Nat → Nat → α) : conj (t2 n m f) = t2 n m fun i j => star (f i j) := map_t2 _ _ _ _
theorem conj_t3 (n m p : Nat) (f : Nat → Nat → Nat → α) : conj (t3 n m p f) = t3 n m p fun i j k => star (f i j k) :=
  map_t3 _ _ _ _ _
theorem conj_t4 (n m p q : Nat) (f : Nat → Nat → Nat → Nat → α) :
    conj (t4 n m p q f) = t4 n m p q fun i j k l => star (f i j k l) :=
  map_t4 _ _ _ _ _ _

theorem mul_eq {x y : Tensor α} : mul x y = zipWith (· * ·) x y := rfl
theorem add_eq {x y : Tensor α} : add x y = zipWith (· + ·) x y := rfl
theorem mT_eq {x : Tensor α} : mT x = transpose x (-2) (-1) := rfl

theorem add_signal (k : Option Nat) (B N : Nat) (y z : Nat → Nat → Nat → α) :
    add (signal k B N y) (signal k B N z) = .ok (signal k B N fun b t p => y b t p + z b t p) := by
  cases k
  · exact zipWith_nm_nm _ _ _ _ _
  · exact zipWith_nmp_nmp _ _ _ _ _ _

theorem featuresOf_t2 (B N : Nat) (x : Nat → Nat → α) : featuresOf (t2 B N x) = -1 := by simp [featuresOf]
theorem featuresOf_t3 (B N F : Nat) (x : Nat → Nat → Nat → α) : featuresOf (t3 B N F x) = F := by
  simp [featuresOf]

theorem natCast_ne_neg_one (n : Nat) : ¬ ((n : Int) = -1) := by omega

theorem inputTerm_eq {B N M : Nat} {Bm : Option (Tensor α)} {x : Tensor α} {v : Nat → Nat → Nat → α}
    (h : LtiInput B N M Bm x v) :
    ∃ Bx, Drive B N M Bx v ∧ (match Bm with
      | some Bm => inputTerm Bm x B M (featuresOf x)
      | none => pure x) = .ok Bx := by
  cases h with
  | none h => exact ⟨_, h, rfl⟩
  | vec g x =>
    refine ⟨_, Drive.full _, ?_⟩
    simp only [inputTerm, shape_t1, if_true]
    refine check_step (rank_t2 _ _ _) (bind_step (unsqueeze_t2_n1 _ _ _) ?_)
    rw [mul_eq, zipWith_nm1_p]
    exact congrArg Except.ok (t3_congr rfl rfl rfl fun b t k _ _ _ => mul_comm _ _)
  | batchVec g x =>
    refine ⟨_, Drive.full _, ?_⟩
    simp only [inputTerm, shape_t2, and_self, if_true]
    refine check_step (rank_t2 _ _ _) (bind_step (unsqueeze_t2_n1 _ _ _) (bind_step (unsqueeze_t2_1 _ _ _) ?_))
    rw [mul_eq, zipWith_nm1_n1p]
    exact congrArg Except.ok (t3_congr rfl rfl rfl fun b t k _ _ _ => mul_comm _ _)
  | mat F g x h =>
    refine ⟨_, Drive.full _, ?_⟩
    simp only [inputTerm, shape_t2, featuresOf_t3, if_neg h, and_self, if_true]
    refine bind_step (transpose_t2_n2_n1 _ _ _) ?_
    rw [matmul_nmp_pq]
    exact congrArg Except.ok (t3_congr rfl rfl rfl fun b t k _ _ _ => sum_congr rfl fun _ _ => mul_comm _ _)
  | batchMat F g x =>
    refine ⟨_, Drive.full _, ?_⟩
    simp only [inputTerm, shape_t3, featuresOf_t3, and_self, if_true]
    refine bind_step (unsqueeze_t3_1 _ _ _ _) (bind_step (unsqueeze_t3_n2 _ _ _ _) ?_)
    rw [conj_t4, vecdot_n1pq_nm1q]
    exact congrArg Except.ok (t3_congr rfl rfl rfl fun b t k _ _ _ => sum_congr rfl fun _ _ => by rw [star_star])

theorem outputTerm_eq {B N M : Nat} {C : Option (Tensor α)} {k : Option Nat} {r : Nat → (Nat → α) → Nat → α}
    (h : LtiReadout B M C k r) (s : Nat → Nat → Nat → α) :
    (match C with
      | some C => outputTerm C (t3 B N M s) B M
      | none => pure (t3 B N M s)) = .ok (signal k B N fun b t p => r b (s b t) p) := by
  cases h with
  | none => rfl
  | vec c =>
    simp only [outputTerm, shape_t1, if_true, signal]
    rw [matmul_nmp_p]
    exact congrArg Except.ok (t2_congr rfl rfl fun b t _ _ => sum_congr rfl fun _ _ => mul_comm _ _)
  | batchVec c =>
    simp only [outputTerm, shape_t2, and_self, if_true, signal]
    refine bind_step (unsqueeze_t2_1 _ _ _) ?_
    rw [conj_t3, vecdot_n1p_nmp]
    exact congrArg Except.ok (t2_congr rfl rfl fun b t _ _ => sum_congr rfl fun _ _ => by rw [star_star])
  | mat P c h =>
    simp only [outputTerm, shape_t2, h, false_and, if_false, if_true, signal]
    refine bind_step (transpose_t2_n2_n1 _ _ _) ?_
    rw [matmul_nmp_pq]
    exact congrArg Except.ok (t3_congr rfl rfl rfl fun b t _ _ _ _ => sum_congr rfl fun _ _ => mul_comm _ _)
  | batchMat P c =>
    simp only [outputTerm, shape_t3, and_self, if_true, signal]
    refine bind_step (transpose_t3_n2_n1 _ _ _ _) ?_
    rw [matmul_nmp_npq]
    exact congrArg Except.ok (t3_congr rfl rfl rfl fun b t _ _ _ _ => sum_congr rfl fun _ _ => mul_comm _ _)

/-- What the feedthrough contributes: nothing, or a signal of the same kind as the output. -/
theorem feedTerm_eq {B N : Nat} {D : Option (Tensor α)} {x : Tensor α} {k : Option Nat} {v : Nat → Nat → Nat → α}
    (h : LtiFeed B N D x k v) :
    (match D with
      | some D => (do let d ← feedTerm D x B (featuresOf x); pure (some d))
      | none => pure none) = Except.ok (D.map fun _ => signal k B N v) ∧ (D = none → v = fun _ _ _ => 0) := by
  cases h with
  | none => exact ⟨rfl, fun _ => rfl⟩
  | scalar d x =>
    refine ⟨bind_step ?_ rfl, fun h => by cases h⟩
    simp only [feedTerm, shape_t0, signal]
    rw [mul_eq, zipWith_nm_s]
    exact congrArg Except.ok (t2_congr rfl rfl fun b t _ _ => mul_comm _ _)
  | scalarFull d F x =>
    refine ⟨bind_step ?_ rfl, fun h => by cases h⟩
    simp only [feedTerm, shape_t0, signal]
    rw [mul_eq, zipWith_nmp_s]
    exact congrArg Except.ok (t3_congr rfl rfl rfl fun b t _ _ _ _ => mul_comm _ _)
  | one d x =>
    refine ⟨bind_step ?_ rfl, fun h => by cases h⟩
    simp only [feedTerm, shape_t1, signal, featuresOf_t2, natCast_ne_neg_one, if_false, if_true]
    split
    · rename_i hB
      refine check_step (rank_t2 _ _ _) (bind_step (unsqueeze_t1_1 _ _) ?_)
      subst hB
      rw [mul_eq, zipWith_n1_nm]
      exact congrArg Except.ok (t2_congr rfl rfl fun b t hb _ => by rw [show b = 0 by omega])
    · rw [mul_eq, zipWith_nm_1]
      exact congrArg Except.ok (t2_congr rfl rfl fun b t _ _ => mul_comm _ _)
  | oneFull d F x hB hF =>
    refine ⟨bind_step ?_ rfl, fun h => by cases h⟩
    simp only [feedTerm, shape_t1, signal, featuresOf_t3]
    rw [if_neg (by omega), if_neg (by omega), if_pos trivial, mul_eq, zipWith_nmp_1]
    exact congrArg Except.ok (t3_congr rfl rfl rfl fun b t _ _ _ _ => mul_comm _ _)
  | batch d x =>
    refine ⟨bind_step ?_ rfl, fun h => by cases h⟩
    simp only [feedTerm, shape_t1, signal, featuresOf_t2, natCast_ne_neg_one, if_false, if_true]
    refine check_step (rank_t2 _ _ _) (bind_step (unsqueeze_t1_1 _ _) ?_)
    rw [mul_eq, zipWith_n1_nm]
  | column P d x hB h1 =>
    refine ⟨bind_step ?_ rfl, fun h => by cases h⟩
    simp only [feedTerm, shape_t1, signal, featuresOf_t2, natCast_ne_neg_one, if_false, hB, h1]
    refine check_step (rank_t2 _ _ _) (bind_step (unsqueeze_t2_n1 _ _ _) ?_)
    rw [mul_eq, zipWith_p_nm1]
  | row F d x =>
    refine ⟨bind_step ?_ rfl, fun h => by cases h⟩
    simp only [feedTerm, shape_t1, signal, featuresOf_t3, if_true]
    rw [matmul_nmp_p]
    exact congrArg Except.ok (t2_congr rfl rfl fun b t _ _ => sum_congr rfl fun _ _ => mul_comm _ _)
  | batchRow F d x =>
    refine ⟨bind_step ?_ rfl, fun h => by cases h⟩
    simp only [feedTerm, shape_t2, signal, featuresOf_t3, and_self, if_true]
    refine bind_step (unsqueeze_t2_1 _ _ _) ?_
    rw [conj_t3, vecdot_n1p_nmp]
    exact congrArg Except.ok (t2_congr rfl rfl fun b t _ _ => sum_congr rfl fun _ _ => by rw [star_star])
  | batchColumn P d x =>
    refine ⟨bind_step ?_ rfl, fun h => by cases h⟩
    simp only [feedTerm, shape_t2, signal, featuresOf_t2, natCast_ne_neg_one, and_false, if_false, if_true]
    refine check_step (rank_t2 _ _ _) (bind_step (unsqueeze_t2_1 _ _ _) (bind_step (unsqueeze_t2_n1 _ _ _) ?_))
    rw [mul_eq, zipWith_n1p_nm1]
  | mat P F d x h =>
    refine ⟨bind_step ?_ rfl, fun h => by cases h⟩
    simp only [feedTerm, shape_t2, signal, featuresOf_t3, h, false_and, if_false, if_true]
    refine bind_step (transpose_t2_n2_n1 _ _ _) ?_
    rw [matmul_nmp_pq]
    exact congrArg Except.ok (t3_congr rfl rfl rfl fun b t _ _ _ _ => sum_congr rfl fun _ _ => mul_comm _ _)
  | batchMat P F d x =>
    refine ⟨bind_step ?_ rfl, fun h => by cases h⟩
    simp only [feedTerm, shape_t3, signal, featuresOf_t3, and_self, if_true]
    refine bind_step (unsqueeze_t3_1 _ _ _ _) (bind_step (unsqueeze_t3_n2 _ _ _ _) ?_)
    rw [conj_t4, vecdot_n1pq_nm1q]
    exact congrArg Except.ok (t3_congr rfl rfl rfl fun b t k _ _ _ => sum_congr rfl fun _ _ => by rw [star_star])

theorem ssmCD_eq {B N M : Nat} {C D : Option (Tensor α)} {x : Tensor α} {k : Option Nat} {r : Nat → (Nat → α) → Nat → α}
    {v : Nat → Nat → Nat → α} (hC : LtiReadout B M C k r) (hD : LtiFeed B N D x k v) (s : Nat → Nat → Nat → α) :
    ssmCD (t3 B N M s) x C D B M = .ok (signal k B N fun b t p => r b (s b t) p + v b t p) := by
  obtain ⟨h1, h2⟩ := feedTerm_eq hD
  unfold ssmCD
  refine bind_step h1 (bind_step (outputTerm_eq hC s) ?_)
  cases D with
  | none =>
    rw [h2 rfl]
    simp only [Option.map, add_zero]
    rfl
  | some D => exact add_signal k B N _ _

theorem initialState_eq {B M : Nat} {zi : Option (Tensor α)} {z : Nat → Nat → α} (h : InitState B M zi z) :
    initialState zi B M = .ok (t2 B M z) := by
  cases h with
  | zero => rfl
  | shared z =>
    unfold initialState
    simp only [rank_t1, if_true]
    refine bind_step (unsqueeze_t1_0 _ _) ?_
    rw [expand_1m_nX]
  | full =>
    unfold initialState
    simp

theorem shiftedStates_none {runner : Tensor α → Tensor α → Tensor α → Int → Option Int → Res (Tensor α)} {A Bx : Tensor α}
    {B N M : Nat} {u : Int} (h : Nat → Nat → Nat → α) (rz : Bool) (hN : 0 < N)
    (hrun : runner A (t2 B M fun b m => h b 0 m) Bx u none = .ok (t3 B N M fun b t m => h b (t + 1) m)) :
    shiftedStates runner A (t2 B M fun b m => h b 0 m) Bx u none rz =
      .ok (t3 B N M h, if rz then some (t2 B M fun b m => h b N m) else none) := by
  unfold shiftedStates
  refine bind_step hrun ?_
  have hz : (if rz = true then (do
      let z ← select (t3 B N M fun b t m => h b (t + 1) m) 1 (-1); pure (some z)) else pure none) =
      (Except.ok (if rz then some (t2 B M fun b m => h b N m) else none) : Res (Option (Tensor α))) := by
    cases rz
    · rfl
    · rw [if_pos rfl, if_pos rfl]
      refine bind_step (select_t3_1_last _ _ _ _ hN) ?_
      rw [Nat.sub_add_cancel hN]; rfl
  refine bind_step hz (bind_step (unsqueeze_t2_1 _ _ _) ?_)
  refine bind_step (v := t3 B (N - 1) M fun b t m => h b (t + 1) m) (by tens1; rfl) ?_
  refine bind_step (v := t3 B N M h) ?_ rfl
  rw [cat2_t3_1]
  refine congrArg Except.ok (t3_congr rfl (by omega) rfl fun b t m _ ht _ => ?_)
  split
  · rw [show t = 0 by omega]
  · rw [Nat.sub_add_cancel (by omega)]

theorem shiftedStates_some {runner : Tensor α → Tensor α → Tensor α → Int → Option Int → Res (Tensor α)} {A Bx : Tensor α}
    {B N M : Nat} {u i : Int} (h : Nat → Nat → Nat → α) (rz : Bool) (hN : 0 < N) (hi : -(M : Int) ≤ i ∧ i < M)
    (hrun : runner A (t2 B M fun b m => h b 0 m) Bx u none = .ok (t3 B N M fun b t m => h b (t + 1) m))
    (hrun' : runner A (t2 B M fun b m => h b 0 m) Bx u (some i) = .ok (t2 B N fun b t => h b (t + 1) (nidx M i))) :
    shiftedStates runner A (t2 B M fun b m => h b 0 m) Bx u (some i) rz =
      .ok (t2 B N fun b t => h b t (nidx M i), if rz then some (t2 B M fun b m => h b N m) else none) := by
  unfold shiftedStates
  have hcat : cat2 (t2 B 1 fun b _ => h b 0 (nidx M i)) (t2 B (N - 1) fun b t => h b (t + 1) (nidx M i)) 1 =
      Except.ok (t2 B N fun b t => h b t (nidx M i)) := by
    rw [cat2_t2_1]
    refine congrArg Except.ok (t2_congr rfl (by omega) fun b t _ ht => ?_)
    split
    · rw [show t = 0 by omega]
    · rw [Nat.sub_add_cancel (by omega)]
  cases rz
  · simp only [Bool.false_eq_true, if_false]
    refine bind_step hrun' (bind_step (select_t2_1_idx _ _ _ _ hi) (bind_step (unsqueeze_t1_1 _ _) ?_))
    refine bind_step (v := t2 B (N - 1) fun b t => h b (t + 1) (nidx M i)) (by tens1; rfl) ?_
    exact bind_step hcat rfl
  · simp only [if_true]
    refine bind_step hrun (bind_step (select_t3_1_last _ _ _ _ hN) (bind_step (select_t2_1_idx _ _ _ _ hi)
      (bind_step (unsqueeze_t1_1 _ _) ?_)))
    refine bind_step (v := t3 B (N - 1) M fun b t m => h b (t + 1) m) (by tens1; rfl) ?_
    refine bind_step (select_t3_2_idx _ _ _ _ _ hi) (bind_step hcat ?_)
    rw [Nat.sub_add_cancel hN]; rfl

theorem roundSqrt_pos {N : Nat} (hN : 0 < N) : 0 < roundSqrt N := by
  have h : 0 < Nat.sqrt N := Nat.sqrt_pos.mpr hN
  unfold roundSqrt
  split <;> omega

theorem size_MatVals {B M : Nat} {A : Tensor α} {Av : Nat → Nat → Nat → α} (hA : MatVals B M M A Av) :
    (A.rank = 2 ∨ A.rank = 3) ∧ A.size (-2) = M ∧ A.size (-1) = M ∧ (A.rank = 3 → A.size 0 = B) := by
  cases hA
  · exact ⟨Or.inl rfl, rfl, rfl, fun h => absurd h (by simp)⟩
  · exact ⟨Or.inr rfl, rfl, rfl, fun _ => rfl⟩

/-- The signal of a state-space model has a batch axis of size `B` and a time axis of size `N`. -/
theorem size_LtiInput {B N M : Nat} {Bm : Option (Tensor α)} {x : Tensor α} {v : Nat → Nat → Nat → α}
    (h : LtiInput B N M Bm x v) : (x.rank = 2 ∨ x.rank = 3) ∧ x.size 0 = B ∧ x.size 1 = N := by
  cases h with
  | none h => cases h
              · exact ⟨Or.inr rfl, rfl, rfl⟩
              · exact ⟨Or.inl rfl, rfl, rfl⟩
  | vec => exact ⟨Or.inl rfl, rfl, rfl⟩
  | batchVec => exact ⟨Or.inl rfl, rfl, rfl⟩
  | mat => exact ⟨Or.inr rfl, rfl, rfl⟩
  | batchMat => exact ⟨Or.inr rfl, rfl, rfl⟩

theorem stateSpaceWith_eq {runner : Tensor α → Tensor α → Tensor α → Int → Option Int → Res (Tensor α)} {B N M : Nat}
    {A x : Tensor α} {Bm C D zi : Option (Tensor α)} {k : Option Nat} {Av v d : Nat → Nat → Nat → α}
    {r : Nat → (Nat → α) → Nat → α} {z : Nat → Nat → α} {u : Option Int} (hA : MatVals B M M A Av)
    (hB : LtiInput B N M Bm x v) (hC : LtiReadout B M C k r) (hD : LtiFeed B N D x k d) (hz : InitState B M zi z)
    (hN : 0 < N) (h : Nat → Nat → Nat → α) (h0 : ∀ b m, h b 0 m = z b m)
    (hrun : ∀ Bx, Drive B N M Bx v → runner A (t2 B M fun b m => h b 0 m) Bx (u.getD (roundSqrt N)) none =
      .ok (t3 B N M fun b t m => h b (t + 1) m)) :
    stateSpaceWith runner A x Bm C D zi u none =
      .ok (signal k B N fun b t p => r b (h b t) p + d b t p,
        if zi.isSome then some (t2 B M fun b m => h b N m) else none) := by
  obtain ⟨hA1, hA2, hA3, hA4⟩ := size_MatVals hA
  obtain ⟨hx1, hx2, hx3⟩ := size_LtiInput hB
  obtain ⟨Bx, hBx, hin⟩ := inputTerm_eq hB
  have hz' : (fun b m => h b 0 m) = z := funext fun b => funext fun m => h0 b m
  unfold stateSpaceWith
  refine check_step hx1 (check_step hA1 (check_step (by rw [hA2, hA3]) (check_step (fun h => by rw [hx2, hA4 h])
    (check_step (Or.inr rfl) ?_))))
  rw [hx2, hx3, hA3]
  refine bind_step (initialState_eq hz) (bind_step hin ?_)
  refine bind_step (v := (t3 B N M h, if zi.isSome then some (t2 B M fun b m => h b N m) else none)) ?_ ?_
  · rw [← hz']
    exact shiftedStates_none h _ hN (hrun Bx hBx)
  exact bind_step (ssmCD_eq hC hD h) rfl

theorem stateSpaceWith_idx {runner : Tensor α → Tensor α → Tensor α → Int → Option Int → Res (Tensor α)} {B N M : Nat}
    {A x : Tensor α} {Bm D zi : Option (Tensor α)} {Av v d : Nat → Nat → Nat → α}
    {z : Nat → Nat → α} {u : Option Int} {i : Int} (hA : MatVals B M M A Av)
    (hB : LtiInput B N M Bm x v) (hD : LtiFeed B N D x none d) (hz : InitState B M zi z)
    (hN : 0 < N) (hi : -(M : Int) ≤ i ∧ i < M) (h : Nat → Nat → Nat → α) (h0 : ∀ b m, h b 0 m = z b m)
    (hrun : ∀ Bx, Drive B N M Bx v → runner A (t2 B M fun b m => h b 0 m) Bx (u.getD (roundSqrt N)) none =
      .ok (t3 B N M fun b t m => h b (t + 1) m))
    (hrun' : ∀ Bx, Drive B N M Bx v → runner A (t2 B M fun b m => h b 0 m) Bx (u.getD (roundSqrt N)) (some i) =
      .ok (t2 B N fun b t => h b (t + 1) (nidx M i))) :
    stateSpaceWith runner A x Bm none D zi u (some i) =
      .ok (t2 B N fun b t => h b t (nidx M i) + d b t 0,
        if zi.isSome then some (t2 B M fun b m => h b N m) else none) := by
  obtain ⟨hA1, hA2, hA3, hA4⟩ := size_MatVals hA
  obtain ⟨hx1, hx2, hx3⟩ := size_LtiInput hB
  obtain ⟨Bx, hBx, hin⟩ := inputTerm_eq hB
  have hz' : (fun b m => h b 0 m) = z := funext fun b => funext fun m => h0 b m
  unfold stateSpaceWith
  refine check_step hx1 (check_step hA1 (check_step (by rw [hA2, hA3]) (check_step (fun h => by rw [hx2, hA4 h])
    (check_step (Or.inl rfl) ?_))))
  rw [hx2, hx3, hA3]
  refine bind_step (initialState_eq hz) (bind_step hin ?_)
  refine bind_step (v := (t2 B N fun b t => h b t (nidx M i), if zi.isSome then some (t2 B M fun b m => h b N m) else none)) ?_ ?_
  · rw [← hz']
    exact shiftedStates_some h _ hN hi (hrun Bx hBx) (hrun' Bx hBx)
  refine bind_step (v := t2 B N fun b t => h b t (nidx M i) + d b t 0) ?_ rfl
  obtain ⟨h1, h2⟩ := feedTerm_eq hD
  unfold ssmCD
  refine bind_step h1 ?_
  simp only [pure_eq_ok, ok_bind]
  cases D with
  | none =>
    rw [h2 rfl]
    simp only [Option.map, add_zero]
  | some D => exact zipWith_nm_nm _ _ _ _ _

end Phil.Lti

namespace Phil.Lpv
open Torch Torch.Tensor Finset Spec
open Phil.Lti (mul_eq add_eq mT_eq conj_t1 conj_t2 conj_t3 conj_t4 add_signal featuresOf featuresOf_t2 featuresOf_t3
  natCast_ne_neg_one initialState_eq shiftedStates_none shiftedStates_some roundSqrt_pos)
variable {α : Type} [CommRing α] [StarRing α]
set_option linter.unusedSectionVars false

theorem inputTerm_eq {B N M : Nat} {Bm : Option (Tensor α)} {x : Tensor α} {v : Nat → Nat → Nat → α}
    (h : LpvInput B N M Bm x v) :
    ∃ Bx, Drive B N M Bx v ∧ (match Bm with
      | some Bm => inputTerm Bm x B N M (featuresOf x)
      | none => pure x) = .ok Bx := by
  cases h with
  | none h => exact ⟨_, h, rfl⟩
  | vec g x =>
    refine ⟨_, Drive.full _, ?_⟩
    simp only [inputTerm, shape_t1, if_true]
    refine check_step (rank_t2 _ _ _) (bind_step (unsqueeze_t2_n1 _ _ _) ?_)
    rw [mul_eq, zipWith_nm1_p]
    exact congrArg Except.ok (t3_congr rfl rfl rfl fun b t k _ _ _ => mul_comm _ _)
  | mat F g x =>
    refine ⟨_, Drive.full _, ?_⟩
    simp only [inputTerm, shape_t2, featuresOf_t3, and_self, if_true]
    refine bind_step (transpose_t2_n2_n1 _ _ _) ?_
    rw [matmul_nmp_pq]
    exact congrArg Except.ok (t3_congr rfl rfl rfl fun b t k _ _ _ => sum_congr rfl fun _ _ => mul_comm _ _)
  | timeVec g x =>
    refine ⟨_, Drive.full _, ?_⟩
    simp only [inputTerm, shape_t2, featuresOf_t2, natCast_ne_neg_one, and_false, if_false, and_self, if_true]
    refine check_step (rank_t2 _ _ _) (bind_step (unsqueeze_t2_n1 _ _ _) ?_)
    rw [mul_eq, zipWith_nm1_mp]
    exact congrArg Except.ok (t3_congr rfl rfl rfl fun b t k _ _ _ => mul_comm _ _)
  | batchVec g x h =>
    refine ⟨_, Drive.full _, ?_⟩
    simp only [inputTerm, shape_t2, featuresOf_t2, natCast_ne_neg_one, and_false, if_false, h, false_and, and_self, if_true]
    refine check_step (rank_t2 _ _ _) (bind_step (unsqueeze_t2_n1 _ _ _) (bind_step (unsqueeze_t2_1 _ _ _) ?_))
    rw [mul_eq, zipWith_nm1_n1p]
    exact congrArg Except.ok (t3_congr rfl rfl rfl fun b t k _ _ _ => mul_comm _ _)
  | timeMat F g x =>
    refine ⟨_, Drive.full _, ?_⟩
    simp only [inputTerm, shape_t3, featuresOf_t3, and_self, if_true]
    refine bind_step (unsqueeze_t3_n2 _ _ _ _) ?_
    rw [conj_t3, vecdot_mpq_nm1q]
    exact congrArg Except.ok (t3_congr rfl rfl rfl fun b t k _ _ _ => sum_congr rfl fun _ _ => by rw [star_star])
  | batchTimeVec g x =>
    refine ⟨_, Drive.full _, ?_⟩
    simp only [inputTerm, shape_t3, featuresOf_t2, natCast_ne_neg_one, and_false, if_false, and_self, if_true]
    refine check_step (rank_t2 _ _ _) (bind_step (unsqueeze_t2_n1 _ _ _) ?_)
    rw [mul_eq, zipWith_nm1_nmp]
    exact congrArg Except.ok (t3_congr rfl rfl rfl fun b t k _ _ _ => mul_comm _ _)
  | batchMat F g x h h' =>
    refine ⟨_, Drive.full _, ?_⟩
    simp only [inputTerm, shape_t3, featuresOf_t3, h, false_and, if_false]
    rw [if_neg (by tauto), if_pos (by simp)]
    refine bind_step (unsqueeze_t3_1 _ _ _ _) (bind_step (unsqueeze_t3_n2 _ _ _ _) ?_)
    rw [conj_t4, vecdot_n1pq_nm1q]
    exact congrArg Except.ok (t3_congr rfl rfl rfl fun b t k _ _ _ => sum_congr rfl fun _ _ => by rw [star_star])
  | batchTimeMat F g x =>
    refine ⟨_, Drive.full _, ?_⟩
    simp only [inputTerm, shape_t4, featuresOf_t3, and_self, if_true]
    refine bind_step (unsqueeze_t3_n2 _ _ _ _) ?_
    rw [conj_t4, vecdot_nmpq_nm1q]
    exact congrArg Except.ok (t3_congr rfl rfl rfl fun b t k _ _ _ => sum_congr rfl fun _ _ => by rw [star_star])

theorem outputTerm_eq {B N M : Nat} {C : Option (Tensor α)} {k : Option Nat} {r : Nat → Nat → (Nat → α) → Nat → α}
    (h : LpvReadout B N M C k r) (s : Nat → Nat → Nat → α) :
    (match C with
      | some C => outputTerm C (t3 B N M s) B N M
      | none => pure (t3 B N M s)) = .ok (signal k B N fun b t p => r b t (s b t) p) := by
  cases h with
  | none => rfl
  | vec c =>
    simp only [outputTerm, shape_t1, if_true, signal]
    rw [matmul_nmp_p]
    exact congrArg Except.ok (t2_congr rfl rfl fun b t _ _ => sum_congr rfl fun _ _ => mul_comm _ _)
  | timeVec c =>
    simp only [outputTerm, shape_t2, and_self, if_true, signal]
    rw [conj_t2, vecdot_mp_nmp]
    exact congrArg Except.ok (t2_congr rfl rfl fun b t _ _ => sum_congr rfl fun _ _ => by rw [star_star])
  | batchVec c h =>
    simp only [outputTerm, shape_t2, h, false_and, if_false, and_self, if_true, signal]
    refine bind_step (unsqueeze_t2_1 _ _ _) ?_
    rw [conj_t3, vecdot_n1p_nmp]
    exact congrArg Except.ok (t2_congr rfl rfl fun b t _ _ => sum_congr rfl fun _ _ => by rw [star_star])
  | mat P c h h' =>
    simp only [outputTerm, shape_t2, h, h', false_and, if_false, if_true, signal]
    refine bind_step (transpose_t2_n2_n1 _ _ _) ?_
    rw [matmul_nmp_pq]
    exact congrArg Except.ok (t3_congr rfl rfl rfl fun b t _ _ _ _ => sum_congr rfl fun _ _ => mul_comm _ _)
  | timeMat P c =>
    simp only [outputTerm, shape_t3, and_self, if_true, signal]
    refine bind_step (unsqueeze_t3_n2 _ _ _ _) ?_
    rw [conj_t3, vecdot_mpq_nm1q]
    exact congrArg Except.ok (t3_congr rfl rfl rfl fun b t k _ _ _ => sum_congr rfl fun _ _ => by rw [star_star])
  | batchTimeVec c h =>
    simp only [outputTerm, shape_t3, h, false_and, if_false, and_self, if_true, signal]
    rw [conj_t3, vecdot_nmp_nmp]
    exact congrArg Except.ok (t2_congr rfl rfl fun b t _ _ => sum_congr rfl fun _ _ => by rw [star_star])
  | batchMat P c h h' =>
    simp only [outputTerm, shape_t3, h, h', false_and, and_false, if_false, and_self, if_true, signal]
    refine bind_step (transpose_t3_n2_n1 _ _ _ _) ?_
    rw [matmul_nmp_npq]
    exact congrArg Except.ok (t3_congr rfl rfl rfl fun b t _ _ _ _ => sum_congr rfl fun _ _ => mul_comm _ _)
  | batchTimeMat P c =>
    simp only [outputTerm, shape_t4, and_self, if_true, signal]
    refine bind_step (unsqueeze_t3_n2 _ _ _ _) ?_
    rw [conj_t4, vecdot_nmpq_nm1q]
    exact congrArg Except.ok (t3_congr rfl rfl rfl fun b t k _ _ _ => sum_congr rfl fun _ _ => by rw [star_star])

theorem feedTerm_eq {B N : Nat} {D : Option (Tensor α)} {x : Tensor α} {k : Option Nat} {v : Nat → Nat → Nat → α}
    (h : LpvFeed B N D x k v) :
    (match D with
      | some D => (do let d ← feedTerm D x B N (featuresOf x); pure (some d))
      | none => pure none) = Except.ok (D.map fun _ => signal k B N v) ∧ (D = none → v = fun _ _ _ => 0) := by
  cases h with
  | none => exact ⟨rfl, fun _ => rfl⟩
  | scalar d x =>
    refine ⟨bind_step ?_ rfl, fun h => by cases h⟩
    simp only [feedTerm, shape_t0, signal]
    rw [mul_eq, zipWith_nm_s]
    exact congrArg Except.ok (t2_congr rfl rfl fun b t _ _ => mul_comm _ _)
  | scalarFull d F x =>
    refine ⟨bind_step ?_ rfl, fun h => by cases h⟩
    simp only [feedTerm, shape_t0, signal]
    rw [mul_eq, zipWith_nmp_s]
    exact congrArg Except.ok (t3_congr rfl rfl rfl fun b t _ _ _ _ => mul_comm _ _)
  | one d x =>
    refine ⟨bind_step ?_ rfl, fun h => by cases h⟩
    simp only [feedTerm, shape_t1, signal, featuresOf_t2, natCast_ne_neg_one, if_false, if_true]
    split
    · rename_i hN
      refine check_step (rank_t2 _ _ _) ?_
      subst hN
      rw [mul_eq, zipWith_m_nm]
      exact congrArg Except.ok (t2_congr rfl rfl fun b t _ ht => by rw [show t = 0 by omega])
    split
    · rename_i hB
      refine check_step (rank_t2 _ _ _) (bind_step (unsqueeze_t1_1 _ _) ?_)
      subst hB
      rw [mul_eq, zipWith_n1_nm]
      exact congrArg Except.ok (t2_congr rfl rfl fun b t hb _ => by rw [show b = 0 by omega])
    · rw [mul_eq, zipWith_nm_1]
      exact congrArg Except.ok (t2_congr rfl rfl fun b t _ _ => mul_comm _ _)
  | oneFull d F x hB hN hF =>
    refine ⟨bind_step ?_ rfl, fun h => by cases h⟩
    simp only [feedTerm, shape_t1, signal, featuresOf_t3]
    rw [if_neg (by omega), if_neg (by omega), if_neg (by omega), if_pos trivial, mul_eq, zipWith_nmp_1]
    exact congrArg Except.ok (t3_congr rfl rfl rfl fun b t _ _ _ _ => mul_comm _ _)
  | time d x =>
    refine ⟨bind_step ?_ rfl, fun h => by cases h⟩
    simp only [feedTerm, shape_t1, signal, featuresOf_t2, natCast_ne_neg_one, if_false, if_true]
    refine check_step (rank_t2 _ _ _) ?_
    rw [mul_eq, zipWith_m_nm]
  | batch d x h =>
    refine ⟨bind_step ?_ rfl, fun h => by cases h⟩
    simp only [feedTerm, shape_t1, signal, featuresOf_t2, natCast_ne_neg_one, if_false, if_true, h]
    refine check_step (rank_t2 _ _ _) (bind_step (unsqueeze_t1_1 _ _) ?_)
    rw [mul_eq, zipWith_n1_nm]
  | column P d x hN hB h1 =>
    refine ⟨bind_step ?_ rfl, fun h => by cases h⟩
    simp only [feedTerm, shape_t1, signal, featuresOf_t2, natCast_ne_neg_one, if_false, hN, hB, h1]
    refine check_step (rank_t2 _ _ _) (bind_step (unsqueeze_t2_n1 _ _ _) ?_)
    rw [mul_eq, zipWith_nm1_p]
    exact congrArg Except.ok (t3_congr rfl rfl rfl fun b t _ _ _ _ => mul_comm _ _)
  | row F d x =>
    refine ⟨bind_step ?_ rfl, fun h => by cases h⟩
    simp only [feedTerm, shape_t1, signal, featuresOf_t3, if_true]
    rw [matmul_nmp_p]
    exact congrArg Except.ok (t2_congr rfl rfl fun b t _ _ => sum_congr rfl fun _ _ => mul_comm _ _)
  | timeRow F d x =>
    refine ⟨bind_step ?_ rfl, fun h => by cases h⟩
    simp only [feedTerm, shape_t2, signal, featuresOf_t3, and_self, if_true]
    rw [conj_t2, vecdot_mp_nmp]
    exact congrArg Except.ok (t2_congr rfl rfl fun b t _ _ => sum_congr rfl fun _ _ => by rw [star_star])
  | batchRow F d x h =>
    refine ⟨bind_step ?_ rfl, fun h => by cases h⟩
    simp only [feedTerm, shape_t2, signal, featuresOf_t3, h, false_and, if_false, and_self, if_true, conj_t2]
    refine bind_step (unsqueeze_t2_1 _ _ _) ?_
    rw [vecdot_n1p_nmp]
    exact congrArg Except.ok (t2_congr rfl rfl fun b t _ _ => sum_congr rfl fun _ _ => by rw [star_star])
  | timeColumn P d x =>
    refine ⟨bind_step ?_ rfl, fun h => by cases h⟩
    simp only [feedTerm, shape_t2, signal, featuresOf_t2, natCast_ne_neg_one, and_false, if_false, if_true]
    refine check_step (rank_t2 _ _ _) (bind_step (unsqueeze_t2_n1 _ _ _) ?_)
    rw [mul_eq, zipWith_mp_nm1]
  | batchTime d x h =>
    refine ⟨bind_step ?_ rfl, fun h => by cases h⟩
    simp only [feedTerm, shape_t2, signal, featuresOf_t2, natCast_ne_neg_one, and_false, if_false, h, and_self, if_true]
    refine check_step (rank_t2 _ _ _) ?_
    rw [mul_eq, zipWith_nm_nm]
  | batchColumn P d x h h' =>
    refine ⟨bind_step ?_ rfl, fun h => by cases h⟩
    simp only [feedTerm, shape_t2, signal, featuresOf_t2, natCast_ne_neg_one, and_false, if_false, h, h', if_true]
    refine check_step (rank_t2 _ _ _) (bind_step (unsqueeze_t2_1 _ _ _) (bind_step (unsqueeze_t2_n1 _ _ _) ?_))
    rw [mul_eq, zipWith_n1p_nm1]
  | mat P F d x hN hB =>
    refine ⟨bind_step ?_ rfl, fun h => by cases h⟩
    simp only [feedTerm, shape_t2, signal, featuresOf_t3, hN, hB, false_and, if_false, if_true]
    refine check_step (rank_t3 _ _ _ _) (bind_step (transpose_t2_n2_n1 _ _ _) ?_)
    rw [matmul_nmp_pq]
    exact congrArg Except.ok (t3_congr rfl rfl rfl fun b t _ _ _ _ => sum_congr rfl fun _ _ => mul_comm _ _)
  | batchTimeRow F d x =>
    refine ⟨bind_step ?_ rfl, fun h => by cases h⟩
    simp only [feedTerm, shape_t3, signal, featuresOf_t3, and_self, if_true]
    rw [conj_t3, vecdot_nmp_nmp]
    exact congrArg Except.ok (t2_congr rfl rfl fun b t _ _ => sum_congr rfl fun _ _ => by rw [star_star])
  | batchTimeColumn P d x =>
    refine ⟨bind_step ?_ rfl, fun h => by cases h⟩
    simp only [feedTerm, shape_t3, signal, featuresOf_t2, natCast_ne_neg_one, and_false, if_false, and_self, if_true]
    refine check_step (rank_t2 _ _ _) (bind_step (unsqueeze_t2_n1 _ _ _) ?_)
    rw [mul_eq, zipWith_nmp_nm1]
  | timeMat P F d x h =>
    refine ⟨bind_step ?_ rfl, fun h => by cases h⟩
    simp only [feedTerm, shape_t3, signal, featuresOf_t3]
    rw [if_neg (by omega), if_neg (by omega), if_pos (by simp)]
    refine bind_step (unsqueeze_t3_n2 _ _ _ _) ?_
    rw [conj_t3, vecdot_mpq_nm1q]
    exact congrArg Except.ok (t3_congr rfl rfl rfl fun b t k _ _ _ => sum_congr rfl fun _ _ => by rw [star_star])
  | batchMat P F d x hN h =>
    refine ⟨bind_step ?_ rfl, fun h => by cases h⟩
    simp only [feedTerm, shape_t3, signal, featuresOf_t3]
    rw [if_neg (by omega), if_neg (by omega), if_neg (by omega), if_pos (by simp)]
    refine bind_step (transpose_t3_n2_n1 _ _ _ _) ?_
    rw [matmul_nmp_npq]
    exact congrArg Except.ok (t3_congr rfl rfl rfl fun b t _ _ _ _ => sum_congr rfl fun _ _ => mul_comm _ _)
  | batchTimeMat P F d x =>
    refine ⟨bind_step ?_ rfl, fun h => by cases h⟩
    simp only [feedTerm, shape_t4, signal, featuresOf_t3, and_self, if_true]
    refine bind_step (unsqueeze_t3_n2 _ _ _ _) ?_
    rw [conj_t4, vecdot_nmpq_nm1q]
    exact congrArg Except.ok (t3_congr rfl rfl rfl fun b t k _ _ _ => sum_congr rfl fun _ _ => by rw [star_star])

theorem ssmCD_eq {B N M : Nat} {C D : Option (Tensor α)} {x : Tensor α} {k : Option Nat}
    {r : Nat → Nat → (Nat → α) → Nat → α}
    {v : Nat → Nat → Nat → α} (hC : LpvReadout B N M C k r) (hD : LpvFeed B N D x k v) (s : Nat → Nat → Nat → α) :
    ssmCD (t3 B N M s) x C D B N M = .ok (signal k B N fun b t p => r b t (s b t) p + v b t p) := by
  obtain ⟨h1, h2⟩ := feedTerm_eq hD
  unfold ssmCD
  refine bind_step h1 (bind_step (outputTerm_eq hC s) ?_)
  cases D with
  | none =>
    rw [h2 rfl]
    simp only [Option.map, add_zero]
    rfl
  | some D => exact add_signal k B N _ _

theorem size_MatSeq {B N M : Nat} {A : Tensor α} {Av : Nat → Nat → Nat → Nat → α} (hA : MatSeq B N M M A Av) :
    (A.rank = 3 ∨ A.rank = 4) ∧ A.size (-2) = M ∧ A.size (-1) = M ∧ A.size (-3) = N := by
  cases hA
  · exact ⟨Or.inl rfl, rfl, rfl, rfl⟩
  · exact ⟨Or.inr rfl, rfl, rfl, rfl⟩

theorem size_LpvInput {B N M : Nat} {Bm : Option (Tensor α)} {x : Tensor α} {v : Nat → Nat → Nat → α}
    (h : LpvInput B N M Bm x v) : (x.rank = 2 ∨ x.rank = 3) ∧ x.size 0 = B ∧ x.size 1 = N := by
  cases h with
  | none h => cases h
              · exact ⟨Or.inr rfl, rfl, rfl⟩
              · exact ⟨Or.inl rfl, rfl, rfl⟩
  | vec => exact ⟨Or.inl rfl, rfl, rfl⟩
  | mat => exact ⟨Or.inr rfl, rfl, rfl⟩
  | timeVec => exact ⟨Or.inl rfl, rfl, rfl⟩
  | batchVec => exact ⟨Or.inl rfl, rfl, rfl⟩
  | timeMat => exact ⟨Or.inr rfl, rfl, rfl⟩
  | batchTimeVec => exact ⟨Or.inl rfl, rfl, rfl⟩
  | batchMat => exact ⟨Or.inr rfl, rfl, rfl⟩
  | batchTimeMat => exact ⟨Or.inr rfl, rfl, rfl⟩

theorem stateSpaceWith_eq {runner : Tensor α → Tensor α → Tensor α → Int → Option Int → Res (Tensor α)} {B N M : Nat}
    {A x : Tensor α} {Bm C D zi : Option (Tensor α)} {k : Option Nat} {Av : Nat → Nat → Nat → Nat → α}
    {v d : Nat → Nat → Nat → α}
    {r : Nat → Nat → (Nat → α) → Nat → α} {z : Nat → Nat → α} {u : Option Int} (hA : MatSeq B N M M A Av)
    (hB : LpvInput B N M Bm x v) (hC : LpvReadout B N M C k r) (hD : LpvFeed B N D x k d) (hz : InitState B M zi z)
    (hN : 0 < N) (h : Nat → Nat → Nat → α) (h0 : ∀ b m, h b 0 m = z b m)
    (hrun : ∀ Bx, Drive B N M Bx v → runner A (t2 B M fun b m => h b 0 m) Bx (u.getD (roundSqrt N)) none =
      .ok (t3 B N M fun b t m => h b (t + 1) m)) :
    stateSpaceWith runner A x Bm C D zi u none =
      .ok (signal k B N fun b t p => r b t (h b t) p + d b t p,
        if zi.isSome then some (t2 B M fun b m => h b N m) else none) := by
  obtain ⟨hA1, hA2, hA3, hA4⟩ := size_MatSeq hA
  obtain ⟨hx1, hx2, hx3⟩ := size_LpvInput hB
  obtain ⟨Bx, hBx, hin⟩ := inputTerm_eq hB
  have hz' : (fun b m => h b 0 m) = z := funext fun b => funext fun m => h0 b m
  unfold stateSpaceWith
  refine check_step hx1 (check_step hA1 (check_step (by rw [hA2, hA3]) (check_step (by rw [hx3, hA4])
    (check_step (Or.inr rfl) ?_))))
  rw [hx2, hx3, hA3]
  refine bind_step (initialState_eq hz) (bind_step hin ?_)
  refine bind_step (v := (t3 B N M h, if zi.isSome then some (t2 B M fun b m => h b N m) else none)) ?_ ?_
  · rw [← hz']
    exact shiftedStates_none h _ hN (hrun Bx hBx)
  exact bind_step (ssmCD_eq hC hD h) rfl

theorem stateSpaceWith_idx {runner : Tensor α → Tensor α → Tensor α → Int → Option Int → Res (Tensor α)} {B N M : Nat}
    {A x : Tensor α} {Bm D zi : Option (Tensor α)} {Av : Nat → Nat → Nat → Nat → α} {v d : Nat → Nat → Nat → α}
    {z : Nat → Nat → α} {u : Option Int} {i : Int} (hA : MatSeq B N M M A Av)
    (hB : LpvInput B N M Bm x v) (hD : LpvFeed B N D x none d) (hz : InitState B M zi z)
    (hN : 0 < N) (hi : -(M : Int) ≤ i ∧ i < M) (h : Nat → Nat → Nat → α) (h0 : ∀ b m, h b 0 m = z b m)
    (hrun : ∀ Bx, Drive B N M Bx v → runner A (t2 B M fun b m => h b 0 m) Bx (u.getD (roundSqrt N)) none =
      .ok (t3 B N M fun b t m => h b (t + 1) m))
    (hrun' : ∀ Bx, Drive B N M Bx v → runner A (t2 B M fun b m => h b 0 m) Bx (u.getD (roundSqrt N)) (some i) =
      .ok (t2 B N fun b t => h b (t + 1) (nidx M i))) :
    stateSpaceWith runner A x Bm none D zi u (some i) =
      .ok (t2 B N fun b t => h b t (nidx M i) + d b t 0,
        if zi.isSome then some (t2 B M fun b m => h b N m) else none) := by
  obtain ⟨hA1, hA2, hA3, hA4⟩ := size_MatSeq hA
  obtain ⟨hx1, hx2, hx3⟩ := size_LpvInput hB
  obtain ⟨Bx, hBx, hin⟩ := inputTerm_eq hB
  have hz' : (fun b m => h b 0 m) = z := funext fun b => funext fun m => h0 b m
  unfold stateSpaceWith
  refine check_step hx1 (check_step hA1 (check_step (by rw [hA2, hA3]) (check_step (by rw [hx3, hA4])
    (check_step (Or.inl rfl) ?_))))
  rw [hx2, hx3, hA3]
  refine bind_step (initialState_eq hz) (bind_step hin ?_)
  refine bind_step (v := (t2 B N fun b t => h b t (nidx M i), if zi.isSome then some (t2 B M fun b m => h b N m) else none)) ?_ ?_
  · rw [← hz']
    exact shiftedStates_some h _ hN hi (hrun Bx hBx) (hrun' Bx hBx)
  refine bind_step (v := t2 B N fun b t => h b t (nidx M i) + d b t 0) ?_ rfl
  obtain ⟨h1, h2⟩ := feedTerm_eq hD
  unfold ssmCD
  refine bind_step h1 ?_
  simp only [pure_eq_ok, ok_bind]
  cases D with
  | none =>
    rw [h2 rfl]
    simp only [Option.map, add_zero]
  | some D => exact zipWith_nm_nm _ _ _ _ _

end Phil.Lpv
