import Verif.Model.LtiDiag
import Verif.Spec.Eigen
import Verif.Props.C01
import Verif.Proof.StateSpace
import Mathlib.LinearAlgebra.Matrix.SemiringInverse

/-!
# `diag_state_space`
-/

namespace Spec
open Finset Torch Torch.Tensor
variable {α : Type} [CommRing α]

theorem Diagonalises.left {M : Nat} {A : Nat → Nat → α} {l : Nat → α} {v w : Nat → Nat → α} (h : Diagonalises M A l v w)
    {i j : Nat} (hi : i < M) (hj : j < M) : ∑ m ∈ range M, w i m * v m j = if i = j then 1 else 0 := by
  have h1 : mat M M v * mat M M w = 1 := by
    rw [← mat_mul]
    ext ⟨i, hi⟩ ⟨j, hj⟩
    simp only [mat, Matrix.of_apply, h.2 i j hi hj, Matrix.one_apply, Fin.mk.injEq]
  have h2 := mul_eq_one_comm.1 h1
  rw [← mat_mul] at h2
  have := congrFun (congrFun h2 ⟨i, hi⟩) ⟨j, hj⟩
  simpa only [mat, Matrix.of_apply, Matrix.one_apply, Fin.mk.injEq] using this

theorem sum_delta_left {M m : Nat} (hm : m < M) (f : Nat → α) : ∑ p ∈ range M, (if m = p then 1 else 0) * f p = f m := by
  simp [hm]

/-- `W A = diag(L) W`. -/
theorem Diagonalises.row {M : Nat} {A : Nat → Nat → α} {l : Nat → α} {v w : Nat → Nat → α} (h : Diagonalises M A l v w)
    {m k : Nat} (hm : m < M) (hk : k < M) : ∑ j ∈ range M, w m j * A j k = l m * w m k := by
  have : ∀ j ∈ range M, w m j * A j k = ∑ p ∈ range M, (w m j * v j p) * (l p * w p k) := fun j hj => by
    rw [h.1 j k (mem_range.1 hj) hk, mul_sum]
    exact sum_congr rfl fun p _ => by ring
  rw [sum_congr rfl this, sum_comm]
  rw [sum_congr rfl fun p hp => by rw [← sum_mul, h.left hm (mem_range.1 hp)]]
  exact sum_delta_left hm _

/-- The states in the eigenbasis. -/
theorem diag_coords {M : Nat} {A : Nat → Nat → α} {l : Nat → α} {v w : Nat → Nat → α} (h : Diagonalises M A l v w)
    (z : Nat → α) (x : Nat → Nat → α) (t : Nat) {m : Nat} (hm : m < M) :
    scalarRec (fun _ => l m) (∑ j ∈ range M, w m j * z j) (fun t => ∑ j ∈ range M, w m j * x t j) t =
      ∑ j ∈ range M, w m j * vecRec M (fun _ => A) z x t j := by
  induction t with
  | zero => rfl
  | succ t ih =>
    simp only [scalarRec, vecRec, ih, mul_add, sum_add_distrib]
    congr 1
    simp only [mul_sum]
    rw [sum_comm]
    refine sum_congr rfl fun k hk => ?_
    rw [← mul_assoc, ← h.row hm (mem_range.1 hk), sum_mul]
    exact sum_congr rfl fun j _ => by ring

theorem diag_vecRec {M : Nat} {A : Nat → Nat → α} {l : Nat → α} {v w : Nat → Nat → α} (h : Diagonalises M A l v w)
    (z : Nat → α) (x : Nat → Nat → α) (t : Nat) {i : Nat} (hi : i < M) :
    ∑ m ∈ range M, v i m * scalarRec (fun _ => l m) (∑ j ∈ range M, w m j * z j) (fun t => ∑ j ∈ range M, w m j * x t j) t =
      vecRec M (fun _ => A) z x t i := by
  rw [sum_congr rfl fun m hm => by rw [diag_coords h z x t (mem_range.1 hm), mul_sum]]
  rw [sum_comm, sum_congr rfl fun j hj => by
    rw [sum_congr rfl fun m _ => (mul_assoc _ _ _).symm, ← sum_mul, h.2 i j hi (mem_range.1 hj)]]
  exact sum_delta_left hi _

end Spec

namespace Phil.Lti
open Torch Torch.Tensor Spec Finset
variable {α : Type} [CommRing α] [StarRing α]

omit [CommRing α] [StarRing α] in
theorem ok_pair' {β γ : Type} {a a' : β} {b b' : γ} (h1 : a = a') (h2 : b = b') : (Except.ok (a, b) : Res (β × γ)) = .ok (a', b') := by
  rw [h1, h2]

theorem diagInit_eq {B M : Nat} {W : Tensor α} {w : Nat → Nat → Nat → α} (hW : MatVals B M M W w) (z : Nat → Nat → α) :
    diagInit W (t2 B M z) = .ok (t2 B M fun b m => ∑ j ∈ range M, w b m j * z b j) := by
  unfold diagInit
  cases hW with
  | shared f =>
    rw [if_pos (rank_t2 _ _ _)]
    refine bind_step (transpose_t2_n2_n1 _ _ _) ?_
    rw [matmul_nm_mp]
    exact congrArg Except.ok (t2_congr rfl rfl fun b m _ _ => sum_congr rfl fun _ _ => mul_comm _ _)
  | batched f =>
    rw [if_neg (by simp), if_pos (rank_t3 _ _ _ _)]
    refine bind_step (unsqueeze_t2_1 _ _ _) ?_
    rw [conj_t3, vecdot_nmp_n1p]
    exact congrArg Except.ok (t2_congr rfl rfl fun b m _ _ => sum_congr rfl fun _ _ => by rw [star_star])

omit [StarRing α] in
theorem sum_first {M : Nat} (hM : 0 < M) (f : Nat → α) (a : α) : ∑ j ∈ range M, f j * (if j = 0 then a else 0) = f 0 * a := by
  rw [sum_eq_single 0]
  · rw [if_pos rfl]
  · intro j _ hj; rw [if_neg hj, mul_zero]
  · intro h; exact absurd (mem_range.2 hM) h

theorem diagInput_eq {B N M : Nat} {W : Tensor α} {w : Nat → Nat → Nat → α} (hW : MatVals B M M W w) (hM : 0 < M)
    {Bm : Option (Tensor α)} {x : Tensor α} {v : Nat → Nat → Nat → α} (h : LtiInput B N M Bm x v) :
    diagInput W Bm x B M (featuresOf x) = .ok (t3 B N M fun b t m => ∑ j ∈ range M, w b m j * v b t j) := by
  cases h with
  | none h =>
    simp only [diagInput]
    cases h with
    | full x =>
      rw [if_neg (by simp), if_neg (by simp), if_pos (rank_t3 _ _ _ _)]
      cases hW with
      | shared f =>
        refine bind_step (transpose_t2_n2_n1 _ _ _) ?_
        rw [matmul_nmp_pq]
        exact congrArg Except.ok (t3_congr rfl rfl rfl fun b t m _ _ _ => sum_congr rfl fun _ _ => mul_comm _ _)
      | batched f =>
        refine bind_step (transpose_t3_n2_n1 _ _ _ _) ?_
        rw [matmul_nmp_npq]
        exact congrArg Except.ok (t3_congr rfl rfl rfl fun b t m _ _ _ => sum_congr rfl fun _ _ => mul_comm _ _)
    | scalar x =>
      cases hW with
      | shared f =>
        rw [if_pos ⟨rank_t2 _ _ _, rank_t2 _ _ _⟩]
        refine bind_step (select_t2_1_0 _ _ _ hM) (bind_step (unsqueeze_t2_n1 _ _ _) ?_)
        rw [mul_eq, zipWith_nm1_p]
        exact congrArg Except.ok (t3_congr rfl rfl rfl fun b t m _ _ _ => by rw [sum_first hM, mul_comm])
      | batched f =>
        rw [if_neg (by simp), if_pos ⟨rank_t2 _ _ _, rank_t3 _ _ _ _⟩]
        refine bind_step (select_t3_2_0 _ _ _ _ hM) (bind_step (unsqueeze_t2_1 _ _ _) (bind_step (unsqueeze_t2_n1 _ _ _) ?_))
        rw [mul_eq, zipWith_nm1_n1p]
        exact congrArg Except.ok (t3_congr rfl rfl rfl fun b t m _ _ _ => by rw [sum_first hM, mul_comm])
  | vec g x =>
    simp only [diagInput, diagInputWith, shape_t1, if_true]
    refine check_step (rank_t2 _ _ _) ?_
    have hs : ∀ (f : Nat → α) (a : α), a * ∑ j ∈ range M, f j * g j = ∑ j ∈ range M, f j * (g j * a) := fun f a => by
      rw [mul_sum]; exact sum_congr rfl fun j _ => by ring
    cases hW with
    | shared f =>
      refine bind_step (matmul_mp_p _ _ _ _) ?_
      rw [if_neg (by simp)]
      refine bind_step rfl (bind_step (unsqueeze_t2_n1 _ _ _) ?_)
      rw [mul_eq, zipWith_nm1_p]
      exact congrArg Except.ok (t3_congr rfl rfl rfl fun b t m _ _ _ => hs _ _)
    | batched f =>
      refine bind_step (matmul_nmp_p _ _ _ _ _) ?_
      rw [if_pos (rank_t2 _ _ _)]
      refine bind_step (unsqueeze_t2_1 _ _ _) (bind_step (unsqueeze_t2_n1 _ _ _) ?_)
      rw [mul_eq, zipWith_nm1_n1p]
      exact congrArg Except.ok (t3_congr rfl rfl rfl fun b t m _ _ _ => hs _ _)
  | batchVec g x =>
    simp only [diagInput, diagInputWith, shape_t2, and_self, if_true]
    refine check_step (rank_t2 _ _ _) ?_
    cases hW with
    | shared f =>
      rw [if_pos (rank_t2 _ _ _)]
      refine bind_step (v := t2 B M fun b m => ∑ j ∈ range M, g b j * f m j) (bind_step (transpose_t2_n2_n1 _ _ _) (matmul_nm_mp _ _ _ _ _)) ?_
      refine bind_step (unsqueeze_t2_n1 _ _ _) (bind_step (unsqueeze_t2_1 _ _ _) ?_)
      rw [mul_eq, zipWith_nm1_n1p]
      refine congrArg Except.ok (t3_congr rfl rfl rfl fun b t m _ _ _ => ?_)
      rw [mul_sum]; exact sum_congr rfl fun j _ => by ring
    | batched f =>
      rw [if_neg (by simp)]
      refine bind_step (v := t2 B M fun b m => ∑ j ∈ range M, w b m j * g b j) (bind_step (unsqueeze_t2_1 _ _ _) ?_) ?_
      · rw [conj_t3, vecdot_nmp_n1p]
        exact congrArg Except.ok (t2_congr rfl rfl fun b m _ _ => sum_congr rfl fun _ _ => by rw [star_star])
      refine bind_step (unsqueeze_t2_n1 _ _ _) (bind_step (unsqueeze_t2_1 _ _ _) ?_)
      rw [mul_eq, zipWith_nm1_n1p]
      refine congrArg Except.ok (t3_congr rfl rfl rfl fun b t m _ _ _ => ?_)
      rw [mul_sum]; exact sum_congr rfl fun j _ => by ring
  | mat F g x hF =>
    simp only [diagInput, diagInputWith, shape_t2, featuresOf_t3, if_neg hF, and_self, if_true]
    have hs : ∀ (f : Nat → α) (x : Nat → α), ∑ k ∈ range F, x k * ∑ j ∈ range M, f j * g j k =
        ∑ j ∈ range M, f j * ∑ k ∈ range F, g j k * x k := fun f x => by
      simp only [mul_sum]; rw [sum_comm]; exact sum_congr rfl fun j _ => sum_congr rfl fun k _ => by ring
    cases hW with
    | shared f =>
      refine bind_step (matmul_nm_mp _ _ _ _ _) (bind_step (transpose_t2_n2_n1 _ _ _) ?_)
      rw [matmul_nmp_pq]
      exact congrArg Except.ok (t3_congr rfl rfl rfl fun b t m _ _ _ => hs _ _)
    | batched f =>
      refine bind_step (matmul_nmp_pq _ _ _ _ _ _) (bind_step (transpose_t3_n2_n1 _ _ _ _) ?_)
      rw [matmul_nmp_npq]
      exact congrArg Except.ok (t3_congr rfl rfl rfl fun b t m _ _ _ => hs _ _)
  | batchMat F g x =>
    simp only [diagInput, diagInputWith, shape_t3, featuresOf_t3, and_self, if_true]
    have hs : ∀ (b : Nat) (f : Nat → α) (x : Nat → α), ∑ k ∈ range F, star (star (∑ j ∈ range M, f j * g b j k)) * x k =
        ∑ j ∈ range M, f j * ∑ k ∈ range F, g b j k * x k := fun b f x => by
      simp only [star_star, mul_sum, sum_mul]; rw [sum_comm]; exact sum_congr rfl fun j _ => sum_congr rfl fun k _ => by ring
    cases hW with
    | shared f =>
      refine bind_step (matmul_mp_npq _ _ _ _ _ _) (bind_step (unsqueeze_t3_1 _ _ _ _) (bind_step (unsqueeze_t3_n2 _ _ _ _) ?_))
      rw [conj_t4, vecdot_n1pq_nm1q]
      exact congrArg Except.ok (t3_congr rfl rfl rfl fun b t m _ _ _ => hs _ _ _)
    | batched f =>
      refine bind_step (matmul_nmp_npq _ _ _ _ _ _) (bind_step (unsqueeze_t3_1 _ _ _ _) (bind_step (unsqueeze_t3_n2 _ _ _ _) ?_))
      rw [conj_t4, vecdot_n1pq_nm1q]
      exact congrArg Except.ok (t3_congr rfl rfl rfl fun b t m _ _ _ => hs _ _ _)

/-- Eigenvalues: one list for all batch items, or one per batch item. -/
inductive EigVals (B M : Nat) : Tensor α → (Nat → Nat → α) → Prop
  | shared (l : Nat → α) : EigVals B M (t1 M l) fun _ => l
  | batched (l : Nat → Nat → α) : EigVals B M (t2 B M l) l

omit [StarRing α] in
theorem diagRecur_eq {runner : Tensor α → Tensor α → Tensor α → Int → Res (Tensor α)} {B N M : Nat} {u : Int} {L : Tensor α}
    {l : Nat → Nat → α} (hL : EigVals B M L l) (hM : 0 < M) (z : Nat → Nat → α) (x : Nat → Nat → Nat → α)
    (hrun : ∀ a i x, runner (t1 (B * M) a) (t1 (B * M) i) (t2 (B * M) N x) u =
      .ok (t2 (B * M) N fun k t => scalarRec (fun _ => a k) (i k) (x k) (t + 1))) :
    diagRecur runner L (t2 B M z) (t3 B N M x) B M u =
      .ok (t3 B M N fun b m t => scalarRec (fun _ => l b m) (z b m) (fun t => x b t m) (t + 1)) := by
  unfold diagRecur
  refine bind_step (v := t2 B M l) ?_ ?_
  · cases hL with
    | shared l => rw [expand_m_nm]
    | batched l => rw [expand_nm_nm]
  refine bind_step (flatten_t2_0_1 _ _ _) (bind_step (flatten_t2_0_1 _ _ _) (bind_step (transpose_t3_n2_n1 _ _ _ _)
    (bind_step (flatten_t3_0_1 _ _ _ _) (bind_step (hrun _ _ _) ?_))))
  rw [unflatten_t2_0_c_c]
  refine congrArg Except.ok (t3_congr rfl rfl rfl fun b m t _ hm _ => ?_)
  have h1 : (b * M + m) / M = b := by rw [Nat.mul_comm, Nat.mul_add_div hM, Nat.div_eq_of_lt hm, Nat.add_zero]
  have h2 : (b * M + m) % M = m := by rw [Nat.mul_comm, Nat.mul_add_mod, Nat.mod_eq_of_lt hm]
  simp only [h1, h2]

/-- Back to the original basis. -/
theorem diagStates_none {B N M : Nat} {V : Tensor α} {v : Nat → Nat → Nat → α} (hV : MatVals B M M V v)
    (g h : Nat → Nat → Nat → α) (rz : Bool) (hN : 0 < N)
    (hg : ∀ b t i, i < M → ∑ m ∈ range M, v b i m * g b m t = h b (t + 1) i) :
    diagStates V (t3 B M N g) (t2 B M fun b m => h b 0 m) none rz =
      .ok (t3 B N M h, if rz then some (t2 B M fun b m => h b N m) else none) := by
  have e1 : matmul V (t3 B M N g) = .ok (t3 B M N fun b m t => h b (t + 1) m) := by
    cases hV with
    | shared f =>
      rw [matmul_mp_npq]
      exact congrArg Except.ok (t3_congr rfl rfl rfl fun b m t _ hm _ => hg b t m hm)
    | batched f =>
      rw [matmul_nmp_npq]
      exact congrArg Except.ok (t3_congr rfl rfl rfl fun b m t _ hm _ => hg b t m hm)
  unfold diagStates
  refine bind_step e1 (bind_step (transpose_t3_n2_n1 _ _ _ _) ?_)
  exact shiftedStates_none (runner := fun _ _ _ _ _ => .ok (t3 B N M fun b t m => h b (t + 1) m)) (A := V) (Bx := V) (u := 0) h rz hN rfl

theorem diagStates_some {B N M : Nat} {V : Tensor α} {v : Nat → Nat → Nat → α} (hV : MatVals B M M V v)
    (g h : Nat → Nat → Nat → α) (rz : Bool) (hN : 0 < N) {i : Int} (hi : -(M : Int) ≤ i ∧ i < M)
    (hg : ∀ b t i, i < M → ∑ m ∈ range M, v b i m * g b m t = h b (t + 1) i) :
    diagStates V (t3 B M N g) (t2 B M fun b m => h b 0 m) (some i) rz =
      .ok (t2 B N fun b t => h b t (nidx M i), if rz then some (t2 B M fun b m => h b N m) else none) := by
  have hn : nidx M i < M := by unfold nidx; split <;> omega
  have e1 : matmul V (t3 B M N g) = .ok (t3 B M N fun b m t => h b (t + 1) m) := by
    cases hV with
    | shared f =>
      rw [matmul_mp_npq]
      exact congrArg Except.ok (t3_congr rfl rfl rfl fun b m t _ hm _ => hg b t m hm)
    | batched f =>
      rw [matmul_nmp_npq]
      exact congrArg Except.ok (t3_congr rfl rfl rfl fun b m t _ hm _ => hg b t m hm)
  cases rz with
  | true =>
    have := shiftedStates_some (runner := fun _ _ _ _ o => match o with
      | none => .ok (t3 B N M fun b t m => h b (t + 1) m)
      | some i => .ok (t2 B N fun b t => h b (t + 1) (nidx M i))) (A := V) (Bx := V) (u := 0) h true hN hi rfl rfl
    unfold diagStates
    unfold shiftedStates at this
    simp only [if_true] at this ⊢
    exact bind_step e1 (bind_step (transpose_t3_n2_n1 _ _ _ _) this)
  | false =>
    unfold diagStates
    simp only [Bool.false_eq_true, if_false]
    refine bind_step (select_t2_1_idx _ _ _ _ hi) (bind_step (unsqueeze_t1_1 _ _) ?_)
    have hcat : cat2 (t2 B 1 fun b _ => h b 0 (nidx M i)) (t2 B (N - 1) fun b t => h b (t + 1) (nidx M i)) 1 =
        Except.ok (t2 B N fun b t => h b t (nidx M i)) := by
      rw [cat2_t2_1]
      refine congrArg Except.ok (t2_congr rfl (by omega) fun b t _ ht => ?_)
      split
      · rw [show t = 0 by omega]
      · rw [Nat.sub_add_cancel (by omega)]
    have hsl : slice (t3 B M N g) (-1) none (some (-1)) = .ok (t3 B M (N - 1) g) := by tens1; rfl
    cases hV with
    | shared f =>
      refine bind_step (select_t2_n2_idx _ _ _ _ hi) (bind_step (unsqueeze_t1_n2 _ _) (bind_step hsl ?_))
      refine bind_step (matmul_mp_npq _ _ _ _ _ _) (bind_step (squeeze_t3_n2 _ _ _) ?_)
      rw [show (t2 B (N - 1) fun b t => ∑ m ∈ range M, f (nidx M i) m * g b m t) = t2 B (N - 1) fun b t => h b (t + 1) (nidx M i) from
        t2_congr rfl rfl fun b t _ _ => hg b t _ hn]
      exact bind_step hcat rfl
    | batched f =>
      refine bind_step (select_t3_n2_idx _ _ _ _ _ hi) (bind_step (unsqueeze_t2_n2 _ _ _) (bind_step hsl ?_))
      refine bind_step (matmul_nmp_npq _ _ _ _ _ _) (bind_step (squeeze_t3_n2 _ _ _) ?_)
      rw [show (t2 B (N - 1) fun b t => ∑ m ∈ range M, v b (nidx M i) m * g b m t) = t2 B (N - 1) fun b t => h b (t + 1) (nidx M i) from
        t2_congr rfl rfl fun b t _ _ => hg b t _ hn]
      exact bind_step hcat rfl

omit [StarRing α] in
theorem dropImag_eq (re : α → α) (drop : Bool) {B N M : Nat} (h : Nat → Nat → Nat → α) (rz : Bool) :
    dropImag re drop (t3 B N M h, if rz then some (t2 B M fun b m => h b N m) else none) =
      (t3 B N M fun b t m => (if drop then re else id) (h b t m),
        if rz then some (t2 B M fun b m => (if drop then re else id) (h b N m)) else none) := by
  unfold dropImag
  cases drop with
  | false => rfl
  | true =>
    rw [if_pos rfl]
    refine Prod.ext ?_ ?_
    · simp only [map_t3, if_true]
    · cases rz with
      | false => rfl
      | true => simp only [if_true, Option.map_some, map_t2]

/-- The result in general: when `C` has a real dtype, the states lose their imaginary parts. -/
theorem diagRun_re {runner : Tensor α → Tensor α → Tensor α → Int → Res (Tensor α)} (re : α → α) (realC : Bool) {B N M : Nat}
    {L V W x : Tensor α} {Bm C D zi : Option (Tensor α)} {k : Option Nat} {l z : Nat → Nat → α}
    {Av v w vx d : Nat → Nat → Nat → α} {r : Nat → (Nat → α) → Nat → α} {u : Int} (hL : EigVals B M L l)
    (hV : MatVals B M M V v) (hW : MatVals B M M W w) (hdec : ∀ b, Diagonalises M (Av b) (l b) (v b) (w b))
    (hB : LtiInput B N M Bm x vx) (hC : LtiReadout B M C k r) (hD : LtiFeed B N D x k d) (hz : InitState B M zi z)
    (hN : 0 < N) (hM : 0 < M)
    (hrun : ∀ a i x, runner (t1 (B * M) a) (t1 (B * M) i) (t2 (B * M) N x) u =
      .ok (t2 (B * M) N fun k t => scalarRec (fun _ => a k) (i k) (x k) (t + 1))) :
    diagRun runner re realC L V W x Bm C D zi none u M =
      .ok (signal k B N fun b t p =>
          r b (fun m => (if (C.isSome && realC) = true then re else id) (vecRec M (fun _ => Av b) (z b) (vx b) t m)) p + d b t p,
        if zi.isSome then some (t2 B M fun b m =>
          (if (C.isSome && realC) = true then re else id) (vecRec M (fun _ => Av b) (z b) (vx b) N m)) else none) := by
  obtain ⟨hx1, hx2, hx3⟩ := size_LtiInput hB
  unfold diagRun
  rw [hx2]
  refine bind_step (initialState_eq hz) (bind_step (diagInit_eq hW z) (bind_step (diagInput_eq hW hM hB)
    (bind_step (diagRecur_eq hL hM _ _ hrun) ?_)))
  refine bind_step (diagStates_none hV _ (fun b t m => vecRec M (fun _ => Av b) (z b) (vx b) t m) _ hN fun b t i hi =>
    diag_vecRec (hdec b) (z b) (vx b) (t + 1) hi) ?_
  rw [dropImag_eq]
  exact bind_step (ssmCD_eq hC hD _) rfl

omit [StarRing α] in
/-- The outputs depend on the state only through its `M` components. -/
theorem diag_readout_congr {B M : Nat} {C : Option (Tensor α)} {k : Option Nat} {r : Nat → (Nat → α) → Nat → α}
    (hC : LtiReadout B M C k r) {h h' : Nat → α} (e : ∀ m, m < M → h m = h' m) (b p : Nat) (hp : k = some M → C = none → p < M) :
    r b h p = r b h' p := by
  cases hC with
  | none => exact e p (hp rfl rfl)
  | vec c => exact sum_congr rfl fun m hm => by rw [e m (mem_range.1 hm)]
  | batchVec c => exact sum_congr rfl fun m hm => by rw [e m (mem_range.1 hm)]
  | mat P c h => exact sum_congr rfl fun m hm => by rw [e m (mem_range.1 hm)]
  | batchMat P c => exact sum_congr rfl fun m hm => by rw [e m (mem_range.1 hm)]

theorem diagRun_eq {runner : Tensor α → Tensor α → Tensor α → Int → Res (Tensor α)} {re : α → α} {realC : Bool} {B N M : Nat}
    {L V W x : Tensor α} {Bm C D zi : Option (Tensor α)} {k : Option Nat} {l z : Nat → Nat → α}
    {Av v w vx d : Nat → Nat → Nat → α} {r : Nat → (Nat → α) → Nat → α} {u : Int} (hL : EigVals B M L l)
    (hV : MatVals B M M V v) (hW : MatVals B M M W w) (hdec : ∀ b, Diagonalises M (Av b) (l b) (v b) (w b))
    (hB : LtiInput B N M Bm x vx) (hC : LtiReadout B M C k r) (hD : LtiFeed B N D x k d) (hz : InitState B M zi z)
    (hN : 0 < N) (hM : 0 < M)
    (hrun : ∀ a i x, runner (t1 (B * M) a) (t1 (B * M) i) (t2 (B * M) N x) u =
      .ok (t2 (B * M) N fun k t => scalarRec (fun _ => a k) (i k) (x k) (t + 1)))
    (hre : C.isSome = true → realC = true → ∀ b t m, m < M →
      re (vecRec M (fun _ => Av b) (z b) (vx b) t m) = vecRec M (fun _ => Av b) (z b) (vx b) t m) :
    diagRun runner re realC L V W x Bm C D zi none u M =
      .ok (signal k B N fun b t p => r b (vecRec M (fun _ => Av b) (z b) (vx b) t) p + d b t p,
        if zi.isSome then some (t2 B M fun b m => vecRec M (fun _ => Av b) (z b) (vx b) N m) else none) := by
  rw [diagRun_re re realC hL hV hW hdec hB hC hD hz hN hM hrun]
  by_cases hd : (C.isSome && realC) = true
  · simp only [hd, if_true]
    rw [Bool.and_eq_true] at hd
    refine ok_pair' ?_ ?_
    · congr 1
      funext b t p
      rw [diag_readout_congr hC (fun m hm => hre hd.1 hd.2 b t m hm) b p (fun _ h => by rw [h] at hd; cases hd.1)]
    · split
      · exact congrArg some (t2_congr rfl rfl fun b m _ hm => hre hd.1 hd.2 b N m hm)
      · rfl
  · simp only [hd]; rfl

theorem diagRun_idx {runner : Tensor α → Tensor α → Tensor α → Int → Res (Tensor α)} {re : α → α} {realC : Bool} {B N M : Nat}
    {L V W x : Tensor α} {Bm D zi : Option (Tensor α)} {l z : Nat → Nat → α}
    {Av v w vx d : Nat → Nat → Nat → α} {u i : Int} (hL : EigVals B M L l)
    (hV : MatVals B M M V v) (hW : MatVals B M M W w) (hdec : ∀ b, Diagonalises M (Av b) (l b) (v b) (w b))
    (hB : LtiInput B N M Bm x vx) (hD : LtiFeed B N D x none d) (hz : InitState B M zi z)
    (hN : 0 < N) (hi : -(M : Int) ≤ i ∧ i < M)
    (hrun : ∀ a i x, runner (t1 (B * M) a) (t1 (B * M) i) (t2 (B * M) N x) u =
      .ok (t2 (B * M) N fun k t => scalarRec (fun _ => a k) (i k) (x k) (t + 1))) :
    diagRun runner re realC L V W x Bm none D zi (some i) u M =
      .ok (t2 B N fun b t => vecRec M (fun _ => Av b) (z b) (vx b) t (nidx M i) + d b t 0,
        if zi.isSome then some (t2 B M fun b m => vecRec M (fun _ => Av b) (z b) (vx b) N m) else none) := by
  obtain ⟨hx1, hx2, hx3⟩ := size_LtiInput hB
  have hM : 0 < M := by omega
  unfold diagRun
  rw [hx2]
  refine bind_step (initialState_eq hz) (bind_step (diagInit_eq hW z) (bind_step (diagInput_eq hW hM hB)
    (bind_step (diagRecur_eq hL hM _ _ hrun) ?_)))
  refine bind_step (diagStates_some hV _ (fun b t m => vecRec M (fun _ => Av b) (z b) (vx b) t m) _ hN hi fun b t i hi =>
    diag_vecRec (hdec b) (z b) (vx b) (t + 1) hi) ?_
  simp only [Option.isSome_none, Bool.false_and, dropImag, Bool.false_eq_true, if_false]
  refine bind_step (v := t2 B N fun b t => vecRec M (fun _ => Av b) (z b) (vx b) t (nidx M i) + d b t 0) ?_ rfl
  obtain ⟨h1, h2⟩ := feedTerm_eq hD
  unfold ssmCD
  refine bind_step h1 ?_
  simp only [pure_eq_ok, ok_bind]
  cases D with
  | none =>
    rw [h2 rfl]
    simp only [Option.map, add_zero]
  | some D => exact zipWith_nm_nm _ _ _ _ _

omit [StarRing α] in
/-- Eigenvalues and both bases have matching layouts. -/
theorem eigen_parts {B M : Nat} {L V W : Tensor α} {l : Nat → Nat → α} {v w : Nat → Nat → Nat → α} (h : Eigen B M L V W l v w) :
    EigVals B M L l ∧ MatVals B M M V v ∧ MatVals B M M W w := by
  cases h with
  | shared l v w => exact ⟨.shared _, .shared _, .shared _⟩
  | batched l v w => exact ⟨.batched _, .batched _, .batched _⟩

omit [StarRing α] in
theorem checkEigen_eq {B M : Nat} {L V W : Tensor α} {l : Nat → Nat → α} {v w : Nat → Nat → Nat → α} (h : Eigen B M L V W l v w)
    {V' W' A' : Option (Tensor α)} (hV' : V' = none ∨ V' = some V) (hW' : W' = none ∨ W' = some W) (h2 : V'.isSome ∨ W'.isSome)
    (hA : ∀ A, A' = some A → A.shape = V.shape) : checkEigen L V' W' A' B = .ok M := by
  have hA' : ∀ s, V.shape = s → absentOrShape A' s = true := by
    rintro s rfl
    cases A' with
    | none => rfl
    | some A => simp [absentOrShape, hA A rfl]
  cases h with
  | shared l v w =>
    simp only [checkEigen, shape_t1]
    refine check_step ?_ (check_step ?_ (check_step (hA' _ rfl) rfl))
    · rcases hV' with rfl | rfl <;> simp [absentOrShape]
    · rcases hW' with rfl | rfl <;> simp [absentOrShape]
  | batched l v w =>
    simp only [checkEigen, shape_t2, if_true]
    refine check_step h2 (check_step ?_ (check_step ?_ (check_step (hA' _ rfl) rfl)))
    · rcases hV' with rfl | rfl <;> simp [absentOrShape]
    · rcases hW' with rfl | rfl <;> simp [absentOrShape]

section
variable {α : Type} [Field α]

theorem linalgInv_eq_t2 {M : Nat} {v w : Nat → Nat → α}
    (h : ∀ i j, i < M → j < M → ∑ m ∈ range M, v i m * w m j = if i = j then 1 else 0) :
    linalgInv (t2 M M v) = .ok (t2 M M w) := by
  have h1 : mat M M v * mat M M w = 1 := by
    rw [← mat_mul]
    ext ⟨i, hi⟩ ⟨j, hj⟩
    simp only [mat, Matrix.of_apply, h i j hi hj, Matrix.one_apply, Fin.mk.injEq]
  rw [t2_eq_fm v, linalgInv_t2 _ (Matrix.det_ne_zero_of_right_inverse h1), Matrix.inv_eq_right_inv h1, ← t2_eq_fm]

theorem linalgInv_eq_t3 {B M : Nat} {v w : Nat → Nat → Nat → α}
    (h : ∀ b i j, i < M → j < M → ∑ m ∈ range M, v b i m * w b m j = if i = j then 1 else 0) :
    linalgInv (t3 B M M v) = .ok (t3 B M M w) := by
  have h1 : ∀ b, mat M M (v b) * mat M M (w b) = 1 := fun b => by
    rw [← mat_mul]
    ext ⟨i, hi⟩ ⟨j, hj⟩
    simp only [mat, Matrix.of_apply, h b i j hi hj, Matrix.one_apply, Fin.mk.injEq]
  rw [t3_eq_fm v, linalgInv_t3 _ fun b _ => Matrix.det_ne_zero_of_right_inverse (h1 b)]
  simp only [Matrix.inv_eq_right_inv (h1 _)]
  rw [← t3_eq_fm]

theorem linalgInv_eq {B M : Nat} {L V W : Tensor α} {l : Nat → Nat → α} {v w : Nat → Nat → Nat → α} (h : Eigen B M L V W l v w)
    (hinv : ∀ b i j, i < M → j < M → ∑ m ∈ range M, v b i m * w b m j = if i = j then 1 else 0) :
    linalgInv V = .ok W := by
  cases h with
  | shared l v w => exact linalgInv_eq_t2 (hinv 0)
  | batched l v w => exact linalgInv_eq_t3 hinv

theorem completeBasis_eq {fe : Tensor α → Tensor α → Res (Tensor α)} {B M : Nat} {L V W : Tensor α} {l : Nat → Nat → α}
    {Av v w : Nat → Nat → Nat → α} (h : Eigen B M L V W l v w) (hdec : ∀ b, Diagonalises M (Av b) (l b) (v b) (w b))
    {V' W' A' : Option (Tensor α)} (hV' : V' = none ∨ V' = some V) (hW' : W' = none ∨ W' = some W) (h2 : V'.isSome ∨ W'.isSome) :
    completeBasis fe L V' W' A' M = .ok (V, W) := by
  have h' : Eigen B M L W V l w v := by
    cases h with
    | shared l v w => exact .shared _ _ _
    | batched l v w => exact .batched _ _ _
  rcases hV' with rfl | rfl <;> rcases hW' with rfl | rfl
  · simp at h2
  · unfold completeBasis
    exact bind_step (linalgInv_eq h' fun b i j hi hj => (hdec b).left hi hj) rfl
  · unfold completeBasis
    exact bind_step (linalgInv_eq h fun b i j hi hj => (hdec b).2 i j hi hj) rfl
  · rfl

end

end Phil.Lti
