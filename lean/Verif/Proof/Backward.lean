import Verif.Model.Backward
import Verif.Proof.Grad
import Verif.Proof.LtiRecur
import Verif.Proof.VecRec
import Verif.Proof.LtiFiltering
import Verif.Spec.Ops
import Verif.Torch.EvalGrad

/-! # Evaluation of the derivative rules -/

namespace Phil.Grad
open Torch Torch.Tensor Finset Spec Phil.Lti
variable {α : Type} [CommRing α] [StarRing α]

/-- The gradient if it is needed. -/
def opt (b : Bool) (g : Tensor α) : Option (Tensor α) := if b then some g else none

omit [StarRing α] in
theorem ifNeeded_ok {b : Bool} {r : Res (Tensor α)} {g : Tensor α} (h : r = .ok g) : ifNeeded b r = .ok (opt b g) := by
  subst h; cases b <;> rfl

omit [StarRing α] in
theorem previousStates_t2 (B N : Nat) (hN : 0 < N) (init : Nat → α) (h : Nat → Nat → α) (h0 : ∀ b, h b 0 = init b) :
    previousStates (t1 B init) (t2 B N fun b n => h b (n + 1)) = .ok (t2 B N h) := by
  unfold previousStates
  refine bind_step (slice_t2_1 _ _ _ _ _) ?_
  refine bind_step (unsqueeze_t1_1 _ _) ?_
  rw [pyStop_neg1, pyStart_none, cat2_t2_1]
  refine congrArg Except.ok (t2_congr rfl (by omega) fun b n _ _ => ?_)
  by_cases hn : n < 1
  · rw [if_pos hn, show n = 0 by omega, h0]
  · rw [if_neg hn]; congr 1; omega

omit [StarRing α] in
theorem previousStates_t2_empty (B : Nat) (init : Nat → α) (h : Nat → Nat → α) (h0 : ∀ b, h b 0 = init b) (f : Nat → Nat → α) :
    previousStates (t1 B init) (t2 B 0 f) = .ok (t2 B 1 h) := by
  unfold previousStates
  refine bind_step (slice_t2_1 _ _ _ _ _) ?_
  refine bind_step (unsqueeze_t1_1 _ _) ?_
  rw [pyStop_neg1, pyStart_none, cat2_t2_1]
  refine congrArg Except.ok (t2_congr rfl (by omega) fun b n _ hn => ?_)
  rw [if_pos (by omega), show n = 0 by omega, h0]

omit [StarRing α] in
theorem previousStates_t3_empty (B M : Nat) (init : Nat → Nat → α) (h : Nat → Nat → Nat → α) (h0 : ∀ b, h b 0 = init b)
    (f : Nat → Nat → Nat → α) : previousStates (t2 B M init) (t3 B 0 M f) = .ok (t3 B 1 M h) := by
  unfold previousStates
  refine bind_step (slice_t3_1 _ _ _ _ _ _) ?_
  refine bind_step (unsqueeze_t2_1 _ _ _) ?_
  rw [pyStop_neg1, pyStart_none, cat2_t3_1]
  refine congrArg Except.ok (t3_congr rfl (by omega) rfl fun b n i _ hn _ => ?_)
  rw [if_pos (by omega), show n = 0 by omega, h0]

omit [StarRing α] in
theorem previousStates_t3 (B N M : Nat) (hN : 0 < N) (init : Nat → Nat → α) (h : Nat → Nat → Nat → α)
    (h0 : ∀ b, h b 0 = init b) :
    previousStates (t2 B M init) (t3 B N M fun b n => h b (n + 1)) = .ok (t3 B N M h) := by
  unfold previousStates
  refine bind_step (slice_t3_1 _ _ _ _ _ _) ?_
  refine bind_step (unsqueeze_t2_1 _ _ _) ?_
  rw [pyStop_neg1, pyStart_none, cat2_t3_1]
  refine congrArg Except.ok (t3_congr rfl (by omega) rfl fun b n i _ _ _ => ?_)
  by_cases hn : n < 1
  · rw [if_pos hn, show n = 0 by omega, h0]
  · rw [if_neg hn, show n - 1 + 0 + 1 = n by omega]

/-! ## Scalar recurrence -/

/-- The gradient with respect to `x`. -/
def scalarAdj (N : Nat) (a : α) (g : Nat → α) (n : Nat) : α :=
  scalarRec (fun _ => star a) 0 (fun s => g (N - 1 - s)) (N - n)

/-- Conjugating keeps the layout. -/
theorem batchVals_conj {B : Nat} {A : Tensor α} {a : Nat → α} (h : BatchVals B A a) :
    BatchVals B (conj A) fun b => star (a b) := by
  cases h with
  | scalar c => rw [conj_t0]; exact .scalar _
  | single g => rw [conj_t1]; exact .single fun i => star (g i)
  | full g => rw [conj_t1]; exact .full _

omit [StarRing α] in
theorem mul_batchVals {B : Nat} {A : Tensor α} {a : Nat → α} (h : BatchVals B A a) (f : Nat → α) :
    mul (t1 B f) A = .ok (t1 B fun b => f b * a b) := by
  cases h with
  | scalar c => exact zipWith_n_s _ _ _ _
  | single g => exact zipWith_n_1 _ _ _ _
  | full g => exact zipWith_n_n _ _ _ _

/-- The gradient with respect to `a`, for each layout of `a`. -/
def scalarGradA (B N : Nat) (A : Tensor α) (h gx : Nat → Nat → α) : Tensor α :=
  if A.rank = 1 then t1 B fun b => ∑ n ∈ range N, star (h b n) * gx b n
  else t0 (∑ b ∈ range B, ∑ n ∈ range N, star (h b n) * gx b n)

theorem ltiRecurBackward_eq {op : Op α} (hop : IsScalarOp op) (needs : Bool × Bool × Bool) {B N : Nat} (hN : 0 < N)
    {A : Tensor α} {a : Nat → α} (hA : BatchVals B A a) (init : Nat → α) (x g : Nat → Nat → α) :
    ltiRecurBackward op needs A (t1 B init) (t2 B N fun b n => scalarRec (fun _ => a b) (init b) (x b) (n + 1))
        (t2 B N g) =
      .ok (opt needs.1 (scalarGradA B N A (fun b => scalarRec (fun _ => a b) (init b) (x b))
            fun b => scalarAdj N (a b) (g b)),
          opt needs.2.1 (t1 B fun b => star (a b) * scalarAdj N (a b) (g b) 0),
          opt needs.2.2 (t2 B N fun b => scalarAdj N (a b) (g b))) := by
  unfold ltiRecurBackward
  refine bind_step (select_t2_1_last _ _ _ hN) ?_
  refine bind_step (slice_t2_1 _ _ _ _ _) ?_
  rw [pyStop_neg1, pyStart_none]
  refine bind_step (flip_t2_1 _ _ _) ?_
  refine bind_step (hop _ _ _ _ _ _ (batchVals_conj hA)) ?_
  refine bind_step (unsqueeze_t1_1 _ _) ?_
  refine bind_step (v := t2 B N fun b s => scalarAdj N (a b) (g b) (N - 1 - s)) ?_ ?_
  · rw [cat2_t2_1]
    refine congrArg Except.ok (t2_congr rfl (by omega) fun b s _ hs => ?_)
    unfold scalarAdj
    by_cases h1 : s < 1
    · obtain rfl : s = 0 := by omega
      rw [if_pos h1, show N - (N - 1 - 0) = 1 by omega]
      simp [scalarRec]
    · rw [if_neg h1, show N - (N - 1 - s) = 1 + s by omega, show s - 1 + 1 = s by omega, scalarRec_add]
      refine scalarRec_congr ?_ (fun _ _ => rfl) fun k hk => ?_
      · simp [scalarRec]
      · congr 1; omega
  have hflip : flip (t2 B N fun b s => scalarAdj N (a b) (g b) (N - 1 - s)) 1 =
      .ok (t2 B N fun b => scalarAdj N (a b) (g b)) := by
    rw [flip_t2_1]
    refine congrArg Except.ok (t2_congr rfl rfl fun b n _ hn => ?_)
    rw [show N - 1 - (N - 1 - n) = n by omega]
  refine bind_step (ifNeeded_ok (g := t1 B fun b => star (a b) * scalarAdj N (a b) (g b) 0) ?_) ?_
  · refine bind_step (select_t2_1_last _ _ _ hN) ?_
    rw [mul_batchVals (batchVals_conj hA)]
    refine congrArg Except.ok (t1_congr rfl fun b _ => ?_)
    rw [mul_comm, Nat.sub_self]
  refine bind_step (ifNeeded_ok hflip) ?_
  refine bind_step (ifNeeded_ok (g := scalarGradA B N A (fun b => scalarRec (fun _ => a b) (init b) (x b))
            fun b => scalarAdj N (a b) (g b)) ?_) rfl
  refine bind_step (previousStates_t2 B N hN init (fun b => scalarRec (fun _ => a b) (init b) (x b)) fun _ => rfl) ?_
  refine bind_step hflip ?_
  unfold scalarGradA
  by_cases hr : A.rank = 1
  · rw [if_pos hr, if_pos hr]; exact vecdot_nm_nm _ _ _ _
  · rw [if_neg hr, if_neg hr]
    refine bind_step (flatten_t2_0_1 _ _ _) ?_
    refine bind_step (flatten_t2_0_1 _ _ _) ?_
    rw [conj_t1, matmul_p_p]
    exact congrArg (fun c => Except.ok (t0 c)) (sum_range_mul_div B N
      fun b n => star (scalarRec (fun _ => a b) (init b) (x b) n) * scalarAdj N (a b) (g b) n)

/-! ### Forward mode -/

omit [StarRing α] in
theorem zeros_getD_t1 {B : Nat} (z : Nat → α) {D : Option (Tensor α)} {d : Nat → α}
    (h : (D = none ∧ d = fun _ => 0) ∨ D = some (t1 B d)) : D.getD (zeros (t1 B z).shape) = t1 B d := by
  rcases h with ⟨rfl, rfl⟩ | rfl
  · exact full_t1 _ _
  · rfl

omit [StarRing α] in
theorem zeros_getD_t2 {B N : Nat} (z : Nat → Nat → α) {D : Option (Tensor α)} {d : Nat → Nat → α}
    (h : (D = none ∧ d = fun _ _ => 0) ∨ D = some (t2 B N d)) : D.getD (zeros (t2 B N z).shape) = t2 B N d := by
  rcases h with ⟨rfl, rfl⟩ | rfl
  · exact full_t2 _ _ _
  · rfl

omit [StarRing α] in
theorem zeros_getD_t3 {B N M : Nat} (z : Nat → Nat → Nat → α) {D : Option (Tensor α)} {d : Nat → Nat → Nat → α}
    (h : (D = none ∧ d = fun _ _ _ => 0) ∨ D = some (t3 B N M d)) :
    D.getD (zeros (t3 B N M z).shape) = t3 B N M d := by
  rcases h with ⟨rfl, rfl⟩ | rfl
  · exact full_t3 _ _ _ _
  · rfl

omit [StarRing α] in
/-- The derivative recurrence is a recurrence driven by the perturbations. -/
theorem dScalarRec_eq (a da : Nat → α) (init dinit : α) (x dx : Nat → α) (n : Nat) :
    dScalarRec a da init dinit x dx n =
      scalarRec a dinit (fun t => dx t + scalarRec a init x t * da t) n := by
  induction n with
  | zero => rfl
  | succ n ih => simp only [dScalarRec, scalarRec]; rw [ih]; ring

omit [StarRing α] in
theorem dVecRec_eq (M : Nat) (A dA : Nat → Nat → Nat → α) (init dinit : Nat → α) (x dx : Nat → Nat → α) (n : Nat) :
    dVecRec M A dA init dinit x dx n =
      vecRec M A dinit (fun t i => dx t i + ∑ k ∈ range M, dA t i k * vecRec M A init x t k) n := by
  induction n with
  | zero => rfl
  | succ n ih => funext i; simp only [dVecRec, vecRec]; rw [ih]; ring

omit [StarRing α] in
theorem mul_viewColumn {B N : Nat} {D : Tensor α} {d : Nat → α} (h : BatchVals B D d) (f : Nat → Nat → α) :
    (ltiRecurJvp.viewColumn D >>= fun c => mul (t2 B N f) c) = .ok (t2 B N fun b n => f b n * d b) := by
  cases h with
  | scalar c =>
    refine bind_step (v := t2 1 1 fun _ _ => c) ?_ (zipWith_nm_11 _ _ _ _ _)
    unfold ltiRecurJvp.viewColumn
    refine check_step (by rw [rank_t0]; decide) ?_
    rw [if_pos (rank_t0 _)]
    exact bind_step (unsqueeze_t0_0 _) (unsqueeze_t1_1 _ _)
  | single g =>
    refine bind_step (v := t2 1 1 fun i _ => g i) ?_ (zipWith_nm_11 _ _ _ _ _)
    unfold ltiRecurJvp.viewColumn
    refine check_step (by rw [rank_t1]) ?_
    rw [if_neg (by rw [rank_t1]; decide)]
    exact bind_step rfl (unsqueeze_t1_1 _ _)
  | full g =>
    refine bind_step (v := t2 B 1 fun i _ => d i) ?_ (zipWith_nm_n1 _ _ _ _ _)
    unfold ltiRecurJvp.viewColumn
    refine check_step (by rw [rank_t1]) ?_
    rw [if_neg (by rw [rank_t1]; decide)]
    exact bind_step rfl (unsqueeze_t1_1 _ _)

omit [StarRing α] in
theorem ltiRecurJvp_eq {op : Op α} (hop : IsScalarOp op) {B N : Nat} {A : Tensor α} {a : Nat → α}
    (hA : BatchVals B A a) (init : Nat → α) (x : Nat → Nat → α) {DA DI DX : Option (Tensor α)}
    {da di : Nat → α} {dx : Nat → Nat → α}
    (hDA : (DA = none ∧ da = fun _ => 0) ∨ ∃ D, DA = some D ∧ BatchVals B D da)
    (hDI : (DI = none ∧ di = fun _ => 0) ∨ DI = some (t1 B di))
    (hDX : (DX = none ∧ dx = fun _ _ => 0) ∨ DX = some (t2 B N dx)) :
    ltiRecurJvp op A (t1 B init) (t2 B N fun b n => scalarRec (fun _ => a b) (init b) (x b) (n + 1)) DA DI DX =
      .ok (t2 B N fun b n => dScalarRec (fun _ => a b) (fun _ => da b) (init b) (di b) (x b) (dx b) (n + 1)) := by
  unfold ltiRecurJvp
  simp only []
  rw [zeros_getD_t1 init hDI, zeros_getD_t2 _ hDX]
  rcases hDA with ⟨rfl, rfl⟩ | ⟨D, rfl, hD⟩
  · simp only []
    rw [hop B N A a _ _ hA]
    refine congrArg Except.ok (t2_congr rfl rfl fun b n _ _ => ?_)
    rw [dScalarRec_eq]
    exact scalarRec_congr rfl (fun _ _ => rfl) fun t _ => by rw [mul_zero, add_zero]
  · simp only []
    have hv : ∀ K, ∃ c, ltiRecurJvp.viewColumn D = .ok c ∧
        mul (t2 B K fun b => scalarRec (fun _ => a b) (init b) (x b)) c =
          .ok (t2 B K fun b n => scalarRec (fun _ => a b) (init b) (x b) n * da b) := by
      intro K
      have h := mul_viewColumn (N := K) hD fun b => scalarRec (fun _ => a b) (init b) (x b)
      cases hc : ltiRecurJvp.viewColumn D with
      | error e => rw [hc] at h; cases h
      | ok c => rw [hc] at h; exact ⟨c, rfl, h⟩
    rcases Nat.eq_zero_or_pos N with rfl | hN
    · obtain ⟨c, hc, hm⟩ := hv 1
      refine bind_step (previousStates_t2_empty B init (fun b => scalarRec (fun _ => a b) (init b) (x b)) (fun _ => rfl) _) ?_
      refine bind_step hc ?_
      refine bind_step hm ?_
      refine bind_step (zipWith_nm_n1 _ _ _ _ _) ?_
      rw [hop B 0 A a _ _ hA]
      exact congrArg Except.ok (t2_congr rfl rfl fun b n _ hn => absurd hn (Nat.not_lt_zero n))
    · obtain ⟨c, hc, hm⟩ := hv N
      refine bind_step (previousStates_t2 B N hN init (fun b => scalarRec (fun _ => a b) (init b) (x b)) fun _ => rfl) ?_
      refine bind_step hc ?_
      refine bind_step hm ?_
      refine bind_step (zipWith_nm_nm _ _ _ _ _) ?_
      rw [hop B N A a _ _ hA]
      refine congrArg Except.ok (t2_congr rfl rfl fun b n _ _ => ?_)
      rw [dScalarRec_eq]

/-! ## Time-invariant matrix recurrence -/

/-- The gradient with respect to `x`. -/
def matAdj (N M : Nat) (a : Nat → Nat → α) (g : Nat → Nat → α) (n : Nat) : Nat → α :=
  vecRec M (fun _ i k => star (a k i)) (fun _ => 0) (fun s => g (N - 1 - s)) (N - n)

/-- Conjugate transpose keeps the layout. -/
theorem matVals_adj {B R Q : Nat} {A : Tensor α} {a : Nat → Nat → Nat → α} (h : MatVals B R Q A a) :
    ∃ T, mT A = .ok T ∧ MatVals B Q R (conj T) fun b i k => star (a b k i) := by
  cases h with
  | shared f => exact ⟨_, transpose_t2_n2_n1 _ _ _, by rw [conj_t2]; exact .shared fun i k => star (f k i)⟩
  | batched f => exact ⟨_, transpose_t3_n2_n1 _ _ _ _, by rw [conj_t3]; exact .batched fun b i k => star (a b k i)⟩

omit [StarRing α] in
theorem matVals_size {B R Q : Nat} {A : Tensor α} {a : Nat → Nat → Nat → α} (h : MatVals B R Q A a) :
    A.size (-1) = Q := by
  cases h with
  | shared f => exact size_t2_n1 _ _ _
  | batched f => exact size_t3_n1 _ _ _ _

omit [StarRing α] in
theorem matVals_apply {B R Q : Nat} {A : Tensor α} {a : Nat → Nat → Nat → α} (h : MatVals B R Q A a) (v : Nat → Nat → α) :
    ∃ p, matmul A (t3 B Q 1 fun b i _ => v b i) = .ok p ∧
      squeeze p (-1) = .ok (t2 B R fun b i => ∑ k ∈ range Q, a b i k * v b k) := by
  cases h with
  | shared f => exact ⟨_, matmul_mp_npq _ _ _ _ _ _, squeeze_t3_n1 _ _ _⟩
  | batched f => exact ⟨_, matmul_nmp_npq _ _ _ _ _ _, squeeze_t3_n1 _ _ _⟩

/-- The gradient with respect to `A`, for each layout of `A`. -/
def matGradA (B N M : Nat) (A : Tensor α) (h gx : Nat → Nat → Nat → α) : Tensor α :=
  if A.rank = 2 then t2 M M fun i k => ∑ b ∈ range B, ∑ n ∈ range N, gx b n i * star (h b n k)
  else t3 B M M fun b i k => ∑ n ∈ range N, gx b n i * star (h b n k)

theorem ltiRecurNBackward_eq {M : Nat} {f op2 : Op α} (hop : IsMatrixOp M (if M ≠ 2 then f else op2))
    (needs : Bool × Bool × Bool) {B N : Nat} (hN : 0 < N)
    {A : Tensor α} {a : Nat → Nat → Nat → α} (hA : MatVals B M M A a) (zi : Nat → Nat → α) (x g : Nat → Nat → Nat → α) :
    ltiRecurNBackward f op2 needs A (t2 B M zi) (t3 B N M fun b n => vecRec M (fun _ => a b) (zi b) (x b) (n + 1))
        (t3 B N M g) =
      .ok (opt needs.1 (matGradA B N M A (fun b => vecRec M (fun _ => a b) (zi b) (x b))
            fun b => matAdj N M (a b) (g b)),
          opt needs.2.1 (t2 B M fun b i => ∑ k ∈ range M, star (a b k i) * matAdj N M (a b) (g b) 0 k),
          opt needs.2.2 (t3 B N M fun b => matAdj N M (a b) (g b))) := by
  obtain ⟨T, hT, hTv⟩ := matVals_adj hA
  unfold ltiRecurNBackward
  refine bind_step hT ?_
  refine bind_step (flip_t3_1 _ _ _ _) ?_
  have hz : (zeros (t2 B M zi).shape : Tensor α) = t2 B M fun _ _ => 0 := full_t2 _ _ _
  refine bind_step (v := t3 B N M fun b s => matAdj N M (a b) (g b) (N - 1 - s)) ?_ ?_
  · rw [matVals_size hA, hz]
    have h1 : (if M ≠ 2 then f (conj T) (t2 B M fun _ _ => 0) (t3 B N M fun i j k => g i (N - 1 - j) k)
        else op2 (conj T) (t2 B M fun _ _ => 0) (t3 B N M fun i j k => g i (N - 1 - j) k)) =
        (if M ≠ 2 then f else op2) (conj T) (t2 B M fun _ _ => 0) (t3 B N M fun i j k => g i (N - 1 - j) k) := by
      split <;> rfl
    rw [h1, hop _ _ _ _ _ _ hTv]
    refine congrArg Except.ok (t3_congr rfl rfl rfl fun b s i _ hs _ => ?_)
    unfold matAdj
    rw [show N - (N - 1 - s) = s + 1 by omega]
  have hflip : flip (t3 B N M fun b s => matAdj N M (a b) (g b) (N - 1 - s)) 1 =
      .ok (t3 B N M fun b => matAdj N M (a b) (g b)) := by
    rw [flip_t3_1]
    refine congrArg Except.ok (t3_congr rfl rfl rfl fun b n i _ hn _ => ?_)
    rw [show N - 1 - (N - 1 - n) = n by omega]
  refine bind_step (ifNeeded_ok
    (g := t2 B M fun b i => ∑ k ∈ range M, star (a b k i) * matAdj N M (a b) (g b) 0 k) ?_) ?_
  · refine bind_step (select_t3_1_last _ _ _ _ hN) ?_
    refine bind_step (unsqueeze_t2_n1 _ _ _) ?_
    rw [Nat.sub_self]
    obtain ⟨p, hp, hs⟩ := matVals_apply hTv fun b => matAdj N M (a b) (g b) 0
    exact bind_step hp hs
  refine bind_step (ifNeeded_ok hflip) ?_
  refine bind_step (ifNeeded_ok (g := matGradA B N M A (fun b => vecRec M (fun _ => a b) (zi b) (x b))
            fun b => matAdj N M (a b) (g b)) ?_) rfl
  refine bind_step (previousStates_t3 B N M hN zi (fun b => vecRec M (fun _ => a b) (zi b) (x b)) fun _ => rfl) ?_
  refine bind_step hflip ?_
  unfold matGradA
  cases hA with
  | shared fA =>
    rw [if_pos (rank_t2 _ _ _), if_pos (rank_t2 _ _ _)]
    refine bind_step (flatten_t3_0_1 _ _ _ _) ?_
    refine bind_step (transpose_t2_n2_n1 _ _ _) ?_
    rw [conj_t3]
    refine bind_step (flatten_t3_0_1 _ _ _ _) ?_
    rw [matmul_nm_mp]
    refine congrArg Except.ok (t2_congr rfl rfl fun i k _ _ => ?_)
    exact sum_range_mul_div B N fun b n => matAdj N M fA (g b) n i * star (vecRec M (fun _ => fA) (zi b) (x b) n k)
  | batched fA =>
    rw [if_neg (by rw [rank_t3]; decide), if_neg (by rw [rank_t3]; decide)]
    refine bind_step (transpose_t3_n2_n1 _ _ _ _) ?_
    rw [conj_t3]
    exact matmul_nmp_npq _ _ _ _ _ _

omit [StarRing α] in
theorem ltiRecurNJvp_eq {M : Nat} {op : Op α} (hop : IsMatrixOp M op) {B N : Nat} {A : Tensor α}
    {a : Nat → Nat → Nat → α} (hA : MatVals B M M A a) (zi : Nat → Nat → α) (x : Nat → Nat → Nat → α)
    {DA DI DX : Option (Tensor α)} {da : Nat → Nat → Nat → α} {di : Nat → Nat → α} {dx : Nat → Nat → Nat → α}
    (hDA : (DA = none ∧ da = fun _ _ _ => 0) ∨ ∃ D, DA = some D ∧ MatVals B M M D da)
    (hDI : (DI = none ∧ di = fun _ _ => 0) ∨ DI = some (t2 B M di))
    (hDX : (DX = none ∧ dx = fun _ _ _ => 0) ∨ DX = some (t3 B N M dx)) :
    ltiRecurNJvp op A (t2 B M zi) (t3 B N M fun b n => vecRec M (fun _ => a b) (zi b) (x b) (n + 1)) DA DI DX =
      .ok (t3 B N M fun b n => dVecRec M (fun _ => a b) (fun _ => da b) (zi b) (di b) (x b) (dx b) (n + 1)) := by
  unfold ltiRecurNJvp
  simp only []
  rw [zeros_getD_t2 zi hDI, zeros_getD_t3 _ hDX]
  rcases hDA with ⟨rfl, rfl⟩ | ⟨D, rfl, hD⟩
  · simp only []
    rw [hop B N A a _ _ hA]
    refine congrArg Except.ok (t3_congr rfl rfl rfl fun b n i _ _ hi => ?_)
    rw [dVecRec_eq]
    exact vecRec_congr (fun _ _ => rfl) (fun _ _ _ _ _ _ => rfl)
      (fun t _ k _ => by simp only [zero_mul, sum_const_zero, add_zero]) hi
  · simp only []
    have hcore : ∀ K, ∃ D' p, (if D.rank = 2 then pure D else unsqueeze D (-3)) = .ok D' ∧
        matmul D' (t4 B K M 1 fun b n k _ => vecRec M (fun _ => a b) (zi b) (x b) n k) = .ok p ∧
        squeeze p (-1) = .ok (t3 B K M fun b n i => ∑ k ∈ range M, da b i k * vecRec M (fun _ => a b) (zi b) (x b) n k) := by
      intro K
      cases hD with
      | shared fD => exact ⟨_, _, by rw [if_pos (rank_t2 _ _ _)]; rfl, matmul_pq_nmqr _ _ _ _ _ _ _, squeeze_t4_n1 _ _ _ _⟩
      | batched fD =>
        exact ⟨_, _, by rw [if_neg (by rw [rank_t3]; decide)]; exact unsqueeze_t3_n3 _ _ _ _, matmul_n1pq_nmqr _ _ _ _ _ _ _,
          squeeze_t4_n1 _ _ _ _⟩
    rcases Nat.eq_zero_or_pos N with rfl | hN
    · obtain ⟨D', p, h1, h2, h3⟩ := hcore 1
      refine bind_step (previousStates_t3_empty B M zi (fun b => vecRec M (fun _ => a b) (zi b) (x b)) (fun _ => rfl) _) ?_
      refine bind_step h1 ?_
      refine bind_step (unsqueeze_t3_n1 _ _ _ _) ?_
      refine bind_step h2 ?_
      refine bind_step h3 ?_
      refine bind_step (zipWith_nmp_n1p _ _ _ _ _ _) ?_
      rw [hop B 0 A a _ _ hA]
      exact congrArg Except.ok (t3_congr rfl rfl rfl fun b n i _ hn _ => absurd hn (Nat.not_lt_zero n))
    · obtain ⟨D', p, h1, h2, h3⟩ := hcore N
      refine bind_step (previousStates_t3 B N M hN zi (fun b => vecRec M (fun _ => a b) (zi b) (x b)) fun _ => rfl) ?_
      refine bind_step h1 ?_
      refine bind_step (unsqueeze_t3_n1 _ _ _ _) ?_
      refine bind_step h2 ?_
      refine bind_step h3 ?_
      refine bind_step (zipWith_nmp_nmp _ _ _ _ _ _) ?_
      rw [hop B N A a _ _ hA]
      refine congrArg Except.ok (t3_congr rfl rfl rfl fun b n i _ _ _ => ?_)
      rw [dVecRec_eq]

/-! ## Time-varying matrix recurrence -/

/-- The gradient with respect to `x`. -/
def seqAdj (N M : Nat) (a : Nat → Nat → Nat → α) (g : Nat → Nat → α) (n : Nat) : Nat → α :=
  vecRec M (fun s i k => star (a ((N - 1 - s + 1) % N) k i)) (fun _ => 0) (fun s => g (N - 1 - s)) (N - n)

/-- Conjugate transpose, roll and flip keep the layout. -/
theorem matSeq_adj {B N R Q : Nat} {A : Tensor α} {a : Nat → Nat → Nat → Nat → α} (h : MatSeq B N R Q A a) :
    ∃ T, mT A = .ok T ∧ MatSeq B N Q R (conj T) fun b t i k => star (a b t k i) := by
  cases h with
  | shared f => exact ⟨_, transpose_t3_n2_n1 _ _ _ _, by rw [conj_t3]; exact .shared fun t i k => star (f t k i)⟩
  | batched f => exact ⟨_, transpose_t4_n2_n1 _ _ _ _ _, by rw [conj_t4]; exact .batched fun b t i k => star (a b t k i)⟩

omit [StarRing α] in
theorem matSeq_rollFlip {B N R Q : Nat} {A : Tensor α} {a : Nat → Nat → Nat → Nat → α} (h : MatSeq B N R Q A a) :
    ∃ T U, rollNeg1 A (-3) = .ok T ∧ flip T (-3) = .ok U ∧ MatSeq B N R Q U fun b t => a b ((N - 1 - t + 1) % N) := by
  cases h with
  | shared f => exact ⟨_, _, rollNeg1_t3_n3 _ _ _ _, flip_t3_n3 _ _ _ _, .shared fun t => f ((N - 1 - t + 1) % N)⟩
  | batched f => exact ⟨_, _, rollNeg1_t4_n3 _ _ _ _ _, flip_t4_n3 _ _ _ _ _, .batched fun b t => a b ((N - 1 - t + 1) % N)⟩

omit [StarRing α] in
theorem matSeq_size {B N R Q : Nat} {A : Tensor α} {a : Nat → Nat → Nat → Nat → α} (h : MatSeq B N R Q A a) :
    A.size (-1) = Q := by
  cases h with
  | shared f => exact size_t3_n1 _ _ _ _
  | batched f => exact size_t4_n1 _ _ _ _ _

omit [StarRing α] in
theorem matSeq_first {B N R Q : Nat} (hN : 0 < N) {A : Tensor α} {a : Nat → Nat → Nat → Nat → α} (h : MatSeq B N R Q A a) :
    ∃ T, select A (-3) 0 = .ok T ∧ MatVals B R Q T fun b => a b 0 := by
  cases h with
  | shared f => exact ⟨_, select_t3_n3_0 _ _ _ _ hN, .shared (f 0)⟩
  | batched f => exact ⟨_, select_t4_n3_0 _ _ _ _ _ hN, .batched fun b => a b 0⟩

/-- The gradient with respect to `A`, for each layout of `A`. -/
def seqGradA (B N M : Nat) (A : Tensor α) (h gx : Nat → Nat → Nat → α) : Tensor α :=
  if A.rank = 3 then t3 N M M fun n i k => ∑ b ∈ range B, gx b n i * star (h b n k)
  else t4 B N M M fun b n i k => star (h b n k) * gx b n i

theorem recurNBackward_eq {M : Nat} {f op2 : Op α} (hop : IsVaryingOp M (if M ≠ 2 then f else op2))
    (needs : Bool × Bool × Bool) {B N : Nat} (hN : 0 < N)
    {A : Tensor α} {a : Nat → Nat → Nat → Nat → α} (hA : MatSeq B N M M A a) (zi : Nat → Nat → α)
    (x g : Nat → Nat → Nat → α) :
    recurNBackward f op2 needs A (t2 B M zi) (t3 B N M fun b n => vecRec M (a b) (zi b) (x b) (n + 1))
        (t3 B N M g) =
      .ok (opt needs.1 (seqGradA B N M A (fun b => vecRec M (a b) (zi b) (x b)) fun b => seqAdj N M (a b) (g b)),
          opt needs.2.1 (t2 B M fun b i => ∑ k ∈ range M, star (a b 0 k i) * seqAdj N M (a b) (g b) 0 k),
          opt needs.2.2 (t3 B N M fun b => seqAdj N M (a b) (g b))) := by
  obtain ⟨T, hT, hTv⟩ := matSeq_adj hA
  obtain ⟨R, U, hR, hU, hUv⟩ := matSeq_rollFlip hTv
  unfold recurNBackward
  refine bind_step hT ?_
  refine bind_step hR ?_
  refine bind_step hU ?_
  refine bind_step (flip_t3_1 _ _ _ _) ?_
  have hz : (zeros (t2 B M zi).shape : Tensor α) = t2 B M fun _ _ => 0 := full_t2 _ _ _
  refine bind_step (v := t3 B N M fun b s => seqAdj N M (a b) (g b) (N - 1 - s)) ?_ ?_
  · rw [matSeq_size hA, hz]
    have h1 : (if M ≠ 2 then f U (t2 B M fun _ _ => 0) (t3 B N M fun i j k => g i (N - 1 - j) k)
        else op2 U (t2 B M fun _ _ => 0) (t3 B N M fun i j k => g i (N - 1 - j) k)) =
        (if M ≠ 2 then f else op2) U (t2 B M fun _ _ => 0) (t3 B N M fun i j k => g i (N - 1 - j) k) := by
      split <;> rfl
    rw [h1, hop _ _ _ _ _ _ hUv]
    refine congrArg Except.ok (t3_congr rfl rfl rfl fun b s i _ hs _ => ?_)
    unfold seqAdj
    rw [show N - (N - 1 - s) = s + 1 by omega]
  have hflip : flip (t3 B N M fun b s => seqAdj N M (a b) (g b) (N - 1 - s)) 1 =
      .ok (t3 B N M fun b => seqAdj N M (a b) (g b)) := by
    rw [flip_t3_1]
    refine congrArg Except.ok (t3_congr rfl rfl rfl fun b n i _ hn _ => ?_)
    rw [show N - 1 - (N - 1 - n) = n by omega]
  refine bind_step (ifNeeded_ok
    (g := t2 B M fun b i => ∑ k ∈ range M, star (a b 0 k i) * seqAdj N M (a b) (g b) 0 k) ?_) ?_
  · obtain ⟨A0, hA0, hA0v⟩ := matSeq_first hN hTv
    refine bind_step hA0 ?_
    refine bind_step (select_t3_1_last _ _ _ _ hN) ?_
    refine bind_step (unsqueeze_t2_n1 _ _ _) ?_
    rw [Nat.sub_self]
    obtain ⟨p, hp, hs⟩ := matVals_apply hA0v fun b => seqAdj N M (a b) (g b) 0
    exact bind_step hp hs
  refine bind_step (ifNeeded_ok hflip) ?_
  refine bind_step (ifNeeded_ok (g := seqGradA B N M A (fun b => vecRec M (a b) (zi b) (x b))
            fun b => seqAdj N M (a b) (g b)) ?_) rfl
  refine bind_step (previousStates_t3 B N M hN zi (fun b => vecRec M (a b) (zi b) (x b)) fun _ => rfl) ?_
  refine bind_step hflip ?_
  unfold seqGradA
  cases hA with
  | shared fA =>
    rw [if_pos (rank_t3 _ _ _ _), if_pos (rank_t3 _ _ _ _)]
    refine bind_step (permute120_t3 _ _ _ _) ?_
    rw [conj_t3]
    refine bind_step (transpose_t3_0_1 _ _ _ _) ?_
    exact matmul_nmp_npq _ _ _ _ _ _
  | batched fA =>
    rw [if_neg (by rw [rank_t4]; decide), if_neg (by rw [rank_t4]; decide)]
    rw [conj_t3]
    refine bind_step (unsqueeze_t3_n2 _ _ _ _) ?_
    refine bind_step (unsqueeze_t3_n1 _ _ _ _) ?_
    exact zipWith_nm1q_nmp1 _ _ _ _ _ _ _

omit [StarRing α] in
theorem recurNJvp_eq {M : Nat} {op : Op α} (hop : IsVaryingOp M op) {B N : Nat} {A : Tensor α}
    {a : Nat → Nat → Nat → Nat → α} (hA : MatSeq B N M M A a) (zi : Nat → Nat → α) (x : Nat → Nat → Nat → α)
    {DA DI DX : Option (Tensor α)} {da : Nat → Nat → Nat → Nat → α} {di : Nat → Nat → α} {dx : Nat → Nat → Nat → α}
    (hDA : (DA = none ∧ da = fun _ _ _ _ => 0) ∨ ∃ D, DA = some D ∧ MatSeq B N M M D da)
    (hDI : (DI = none ∧ di = fun _ _ => 0) ∨ DI = some (t2 B M di))
    (hDX : (DX = none ∧ dx = fun _ _ _ => 0) ∨ DX = some (t3 B N M dx)) :
    recurNJvp op A (t2 B M zi) (t3 B N M fun b n => vecRec M (a b) (zi b) (x b) (n + 1)) DA DI DX =
      .ok (t3 B N M fun b n => dVecRec M (a b) (da b) (zi b) (di b) (x b) (dx b) (n + 1)) := by
  unfold recurNJvp
  simp only []
  rw [zeros_getD_t2 zi hDI, zeros_getD_t3 _ hDX]
  rcases hDA with ⟨rfl, rfl⟩ | ⟨D, rfl, hD⟩
  · simp only []
    rw [hop B N A a _ _ hA]
    refine congrArg Except.ok (t3_congr rfl rfl rfl fun b n i _ _ hi => ?_)
    rw [dVecRec_eq]
    exact vecRec_congr (fun _ _ => rfl) (fun _ _ _ _ _ _ => rfl)
      (fun t _ k _ => by simp only [zero_mul, sum_const_zero, add_zero]) hi
  · simp only []
    rcases Nat.eq_zero_or_pos N with rfl | hN
    · refine bind_step (previousStates_t3_empty B M zi (fun b => vecRec M (a b) (zi b) (x b)) (fun _ => rfl) _) ?_
      refine bind_step (unsqueeze_t3_n1 _ _ _ _) ?_
      have hcore : ∃ p g, matmul D (t4 B 1 M 1 fun b n k _ => vecRec M (a b) (zi b) (x b) n k) = .ok p ∧
          squeeze p (-1) = .ok (t3 B 0 M g) := by
        cases hD with
        | shared fD => exact ⟨_, _, matmul_mpq_n1qr _ _ _ _ _ _ _, squeeze_t4_n1 _ _ _ _⟩
        | batched fD => exact ⟨_, _, matmul_nmpq_n1qr _ _ _ _ _ _ _, squeeze_t4_n1 _ _ _ _⟩
      obtain ⟨p, g, h2, h3⟩ := hcore
      refine bind_step h2 ?_
      refine bind_step h3 ?_
      refine bind_step (zipWith_nmp_nmp _ _ _ _ _ _) ?_
      rw [hop B 0 A a _ _ hA]
      exact congrArg Except.ok (t3_congr rfl rfl rfl fun b n i _ hn _ => absurd hn (Nat.not_lt_zero n))
    · refine bind_step (previousStates_t3 B N M hN zi (fun b => vecRec M (a b) (zi b) (x b)) fun _ => rfl) ?_
      refine bind_step (unsqueeze_t3_n1 _ _ _ _) ?_
      have hcore : ∃ p, matmul D (t4 B N M 1 fun b n k _ => vecRec M (a b) (zi b) (x b) n k) = .ok p ∧
          squeeze p (-1) = .ok (t3 B N M fun b n i => ∑ k ∈ range M, da b n i k * vecRec M (a b) (zi b) (x b) n k) := by
        cases hD with
        | shared fD => exact ⟨_, matmul_mpq_nmqr _ _ _ _ _ _ _, squeeze_t4_n1 _ _ _ _⟩
        | batched fD => exact ⟨_, matmul_nmpq_nmqr _ _ _ _ _ _ _, squeeze_t4_n1 _ _ _ _⟩
      obtain ⟨p, h2, h3⟩ := hcore
      refine bind_step h2 ?_
      refine bind_step h3 ?_
      refine bind_step (zipWith_nmp_nmp _ _ _ _ _ _) ?_
      rw [hop B N A a _ _ hA]
      refine congrArg Except.ok (t3_congr rfl rfl rfl fun b n i _ _ _ => ?_)
      rw [dVecRec_eq]

end Phil.Grad
