import Verif.Proof.Fake
import Verif.Torch.Fails
import Verif.Proof.Helion
import Verif.Props.C38
import Verif.Props.C40

/-!
# C42: the shape functions of the compiled ops

Full claim: whenever an op accepts its arguments, the registered shape function accepts them and predicts the shape of the result.
It holds for `lti_recur` (`C42_lti_recur`).  It is false for the matrix recurrences: the ops do not compare the number of matrices in
`A` with the batch size and with the length of `x`, the shape functions do (`C42_more_matrices`, `C42_longer_sequence`); nor do the ops
insist on a three-dimensional `x`.  The partial theorems assume these two things.  The other direction
(`C42_…_predicts`): what the shape function accepts, the op computes, with the predicted shape.
-/

namespace Props
open Torch Torch.Tensor Spec Phil Phil.Host Omp Phil.Cuda Scan
variable {α : Type} [CommRing α]

/-- **C42, `lti_recur` on the CPU**: all arguments. -/
theorem C42_lti_recur {sch : Scheduler (Regs α) α} (h : IsScheduler sch) {A zi x y : Tensor α}
    (hy : ltiRecurCpu sch A zi x = .ok y) : Fake.ltiRecur A zi x = .ok y.shape := by
  have hop := ltiRecurCpu_isScalarOp h
  have hcall := hy
  unfold ltiRecurCpu at hy
  obtain ⟨_, c1, hy⟩ := Fake.bind_inv hy
  obtain ⟨_, c2, hy⟩ := Fake.bind_inv hy
  obtain ⟨_, c3, hy⟩ := Fake.bind_inv hy
  obtain ⟨z1, hz1, hy⟩ := Fake.bind_inv hy
  obtain ⟨out, hout, hy⟩ := Fake.bind_inv hy
  obtain ⟨mem, hmem, hy⟩ := Fake.bind_inv hy
  exact Fake.ltiRecur_accepts hop hcall (of_check c1) (of_check c2) hz1 hout (by
    split at hmem
    · rename_i hh; exact Or.inl hh.2
    · obtain ⟨_, c4, -⟩ := Fake.bind_inv hmem
      exact Or.inr (of_check c4))

example := C42_lti_recur C38_alternating_case (ltiRecurCpu_isScalarOp C38_alternating_case 3 7 _ _ (fun i => (i : ℤ)) (fun i t => (i : ℤ) * t)
  (.single 2))

/-- **C42, `lti_recur` on CUDA**: all arguments. -/
theorem C42_lti_recur_cuda {scan : Scanner (α × α)} (h : IsScan scan) {A zi x y : Tensor α}
    (hy : ltiRecurCuda scan A zi x = .ok y) : Fake.ltiRecur A zi x = .ok y.shape := by
  have hop := ltiRecurCuda_isScalarOp h
  have hcall := hy
  unfold ltiRecurCuda at hy
  obtain ⟨_, c1, hy⟩ := Fake.bind_inv hy
  obtain ⟨_, c2, hy⟩ := Fake.bind_inv hy
  obtain ⟨_, c3, hy⟩ := Fake.bind_inv hy
  obtain ⟨z1, hz1, hy⟩ := Fake.bind_inv hy
  obtain ⟨out, hout, hy⟩ := Fake.bind_inv hy
  obtain ⟨mem, hmem, hy⟩ := Fake.bind_inv hy
  exact Fake.ltiRecur_accepts hop hcall (of_check c1) (of_check c2) hz1 hout (by
    split at hmem
    · rename_i hh; exact Or.inl hh.2
    · obtain ⟨_, c4, -⟩ := Fake.bind_inv hmem
      exact Or.inr (of_check c4))

example := C42_lti_recur_cuda C40_left_case (ltiRecurCuda_isScalarOp C40_left_case 3 7 _ _ (fun i => (i : ℤ)) (fun i t => (i : ℤ) * t)
  (.full fun i => (i : ℤ) + 2))

/-- **C42, `lti_recurN` on the CPU** (partial: `x` three-dimensional, as many matrices as batch items). -/
theorem C42_lti_recurN_partial {sch : Scheduler (Regs α) α} (h : IsScheduler sch) {A zi x y : Tensor α}
    (hx : x.rank = 3) (hA : A.rank = 3 → A.size 0 = x.size 0) (hy : ltiRecurNCpu sch A zi x = .ok y) :
    Fake.ltiRecurN A zi x = .ok y.shape := by
  have hcall := hy
  unfold ltiRecurNCpu at hy
  obtain ⟨_, c1, hy⟩ := Fake.bind_inv hy
  obtain ⟨_, c2, hy⟩ := Fake.bind_inv hy
  obtain ⟨_, c3, hy⟩ := Fake.bind_inv hy
  obtain ⟨_, c4, hy⟩ := Fake.bind_inv hy
  obtain ⟨z1, hz1, hy⟩ := Fake.bind_inv hy
  obtain ⟨out, hout, hy⟩ := Fake.bind_inv hy
  have c3 := of_check c3
  have c4 := of_check c4
  have hs := Fake.shape_of_rank3 hx
  have hz := Fake.state_shape3 hx hz1 hout
  have hl := Fake.lti_layout (B := x.size 0) (m := x.size 2) (of_check c1) c3.symm (by rw [← c4, c3]) hA
  obtain ⟨y', e, hsh⟩ := Fake.matrixOp_shape (ltiRecurNCpu_isMatrixOp h _) hl hz hs
  obtain rfl := Except.ok.inj (hcall.symm.trans e)
  unfold Fake.ltiRecurN
  rw [Fake.dim_ok hs, ok_bind, (Fake.matChecks_ok hs hz).1 hl, hsh]; rfl

example := C42_lti_recurN_partial C38_alternating_case (A := t3 3 4 4 fun i t k => (i : ℤ) + t * k)
  (zi := t2 3 4 fun i t => (i : ℤ) * t) (x := t3 3 7 4 fun i t k => (i : ℤ) - t * k)
  rfl (fun _ => rfl) (ltiRecurNCpu_isMatrixOp C38_alternating_case 4 3 7 _ _ _ _ (.batched _))

/-- **C42, `lti_recur2` on the CPU**, which runs the kernel of `lti_recurN` (partial: `x` three-dimensional with two states, as many
matrices as batch items). -/
theorem C42_lti_recur2_partial {sch : Scheduler (Regs α) α} (h : IsScheduler sch) {A zi x y : Tensor α}
    (hx : x.rank = 3) (h2 : x.size 2 = 2) (hA : A.rank = 3 → A.size 0 = x.size 0) (hy : ltiRecurNCpu sch A zi x = .ok y) :
    Fake.ltiRecur2 A zi x = .ok y.shape := by
  have := C42_lti_recurN_partial h hx hA hy
  unfold Fake.ltiRecurN at this
  rwa [Fake.dim_ok (Fake.shape_of_rank3 hx), ok_bind, h2] at this

example := C42_lti_recur2_partial C38_alternating_case (A := t3 3 2 2 fun i t k => (i : ℤ) + t * k)
  (zi := t2 3 2 fun i t => (i : ℤ) * t) (x := t3 3 7 2 fun i t k => (i : ℤ) - t * k)
  rfl rfl (fun _ => rfl) (ltiRecurNCpu_isMatrixOp C38_alternating_case 2 3 7 _ _ _ _ (.batched _))

/-- **C42, `recurN` on the CPU** (partial: `x` three-dimensional, as many matrices as time steps and as many sequences as batch
items). -/
theorem C42_recurN_partial {sch : Scheduler (Regs α) α} (h : IsScheduler sch) {A zi x y : Tensor α}
    (hx : x.rank = 3) (hA : A.rank = 4 → A.size 0 = x.size 0) (hN : A.size (-3) = x.size 1) (hy : recurNCpu sch A zi x = .ok y) :
    Fake.recurN A zi x = .ok y.shape := by
  have hcall := hy
  unfold recurNCpu at hy
  obtain ⟨_, c1, hy⟩ := Fake.bind_inv hy
  obtain ⟨_, c2, hy⟩ := Fake.bind_inv hy
  obtain ⟨_, c3, hy⟩ := Fake.bind_inv hy
  obtain ⟨_, c4, hy⟩ := Fake.bind_inv hy
  obtain ⟨Ac, -, hy⟩ := Fake.bind_inv hy
  obtain ⟨z1, hz1, hy⟩ := Fake.bind_inv hy
  obtain ⟨out, hout, hy⟩ := Fake.bind_inv hy
  have c3 := of_check c3
  have c4 := of_check c4
  have hs := Fake.shape_of_rank3 hx
  have hz := Fake.state_shape3 hx hz1 hout
  have hl := Fake.lpv_layout (B := x.size 0) (m := x.size 2) (of_check c1) c3.symm (by rw [← c4, c3]) hN hA
  obtain ⟨y', e, hsh⟩ := Fake.varyingOp_shape (recurNCpu_isVaryingOp h _) hl hz hs
  obtain rfl := Except.ok.inj (hcall.symm.trans e)
  unfold Fake.recurN
  rw [Fake.dim_ok hs, ok_bind, (Fake.matChecks_ok hs hz).2 hl, hsh]; rfl

example := C42_recurN_partial C38_alternating_case (A := t4 3 7 4 4 fun i t k j => (i : ℤ) + t * k - j)
  (zi := t2 3 4 fun i t => (i : ℤ) * t) (x := t3 3 7 4 fun i t k => (i : ℤ) - t * k)
  rfl (fun _ => rfl) rfl (recurNCpu_isVaryingOp C38_alternating_case 4 3 7 _ _ _ _ (.batched _))

/-- **C42, `recur2` on the CPU**, which runs the kernel of `recurN`. -/
theorem C42_recur2_partial {sch : Scheduler (Regs α) α} (h : IsScheduler sch) {A zi x y : Tensor α}
    (hx : x.rank = 3) (h2 : x.size 2 = 2) (hA : A.rank = 4 → A.size 0 = x.size 0) (hN : A.size (-3) = x.size 1)
    (hy : recurNCpu sch A zi x = .ok y) : Fake.recur2 A zi x = .ok y.shape := by
  have := C42_recurN_partial h hx hA hN hy
  unfold Fake.recurN at this
  rwa [Fake.dim_ok (Fake.shape_of_rank3 hx), ok_bind, h2] at this

example := C42_recur2_partial C38_alternating_case (A := t4 3 7 2 2 fun i t k j => (i : ℤ) + t * k - j)
  (zi := t2 3 2 fun i t => (i : ℤ) * t) (x := t3 3 7 2 fun i t k => (i : ℤ) - t * k)
  rfl rfl (fun _ => rfl) rfl (recurNCpu_isVaryingOp C38_alternating_case 2 3 7 _ _ _ _ (.batched _))

/-- **C42, `lti_recur2` on CUDA** (partial as on the CPU). -/
theorem C42_lti_recur2_cuda_partial {scan : Scanner (Sq2 α)} (h : IsScan scan) {A zi x y : Tensor α}
    (hx : x.rank = 3) (hA : A.rank = 3 → A.size 0 = x.size 0) (hy : ltiRecur2Cuda scan A zi x = .ok y) :
    Fake.ltiRecur2 A zi x = .ok y.shape := by
  have hcall := hy
  unfold ltiRecur2Cuda at hy
  obtain ⟨_, c1, hy⟩ := Fake.bind_inv hy
  obtain ⟨_, c2, hy⟩ := Fake.bind_inv hy
  obtain ⟨_, c3, hy⟩ := Fake.bind_inv hy
  obtain ⟨_, c4, hy⟩ := Fake.bind_inv hy
  obtain ⟨z1, hz1, hy⟩ := Fake.bind_inv hy
  obtain ⟨out, hout, hy⟩ := Fake.bind_inv hy
  have c3 := of_check c3
  have c4 := of_check c4
  have hs := Fake.shape_of_rank3 hx
  have hz := Fake.state_shape3 hx hz1 hout
  rw [c3] at hs hz
  have hl := Fake.lti_layout (B := x.size 0) (m := 2) (of_check c1) c4.1 c4.2 hA
  obtain ⟨y', e, hsh⟩ := Fake.matrixOp_shape (ltiRecur2Cuda_isMatrixOp h) hl hz hs
  obtain rfl := Except.ok.inj (hcall.symm.trans e)
  unfold Fake.ltiRecur2
  rw [(Fake.matChecks_ok hs hz).1 hl, hsh]; rfl

example := C42_lti_recur2_cuda_partial C40_right_case (A := t3 3 2 2 fun i t k => (i : ℤ) + t * k)
  (zi := t2 3 2 fun i t => (i : ℤ) * t) (x := t3 3 7 2 fun i t k => (i : ℤ) - t * k)
  rfl (fun _ => rfl) (ltiRecur2Cuda_isMatrixOp C40_right_case 3 7 _ _ _ _ (.batched _))

/-- **C42, `recur2` on CUDA** (partial as on the CPU). -/
theorem C42_recur2_cuda_partial {scan : Scanner (Sq2 α)} (h : IsScan scan) {A zi x y : Tensor α}
    (hx : x.rank = 3) (hA : A.rank = 4 → A.size 0 = x.size 0) (hN : A.size (-3) = x.size 1) (hy : recur2Cuda scan A zi x = .ok y) :
    Fake.recur2 A zi x = .ok y.shape := by
  have hcall := hy
  unfold recur2Cuda at hy
  obtain ⟨_, c1, hy⟩ := Fake.bind_inv hy
  obtain ⟨_, c2, hy⟩ := Fake.bind_inv hy
  obtain ⟨_, c3, hy⟩ := Fake.bind_inv hy
  obtain ⟨_, c4, hy⟩ := Fake.bind_inv hy
  obtain ⟨Ap, -, hy⟩ := Fake.bind_inv hy
  obtain ⟨Av, -, hy⟩ := Fake.bind_inv hy
  obtain ⟨Ac, -, hy⟩ := Fake.bind_inv hy
  obtain ⟨z1, hz1, hy⟩ := Fake.bind_inv hy
  obtain ⟨out, hout, hy⟩ := Fake.bind_inv hy
  have c3 := of_check c3
  have c4 := of_check c4
  have hs := Fake.shape_of_rank3 hx
  have hz := Fake.state_shape3 hx hz1 hout
  rw [c3] at hs hz
  have hl := Fake.lpv_layout (B := x.size 0) (m := 2) (of_check c1) c4.1 c4.2 hN hA
  obtain ⟨y', e, hsh⟩ := Fake.varyingOp_shape (recur2Cuda_isVaryingOp h) hl hz hs
  obtain rfl := Except.ok.inj (hcall.symm.trans e)
  unfold Fake.recur2
  rw [(Fake.matChecks_ok hs hz).2 hl, hsh]; rfl

example := C42_recur2_cuda_partial C40_right_case (A := t4 3 7 2 2 fun i t k j => (i : ℤ) + t * k - j)
  (zi := t2 3 2 fun i t => (i : ℤ) * t) (x := t3 3 7 2 fun i t k => (i : ℤ) - t * k)
  rfl (fun _ => rfl) rfl (recur2Cuda_isVaryingOp C40_right_case 3 7 _ _ _ _ (.batched _))

/-! ## The other direction: what the shape functions accept, every correct op computes, with the predicted shape -/

/-- **C42, `lti_recurN`**: any op that meets its contract, e.g. the CPU kernel. -/
theorem C42_lti_recurN_predicts {op : Op α} (hop : ∀ M, IsMatrixOp M op) {A zi x : Tensor α} {s : List Nat} (hz : zi.rank = 2)
    (hx : x.rank = 3) (hs : Fake.ltiRecurN A zi x = .ok s) : ∃ y, op A zi x = .ok y ∧ y.shape = s := by
  unfold Fake.ltiRecurN at hs
  obtain ⟨m, -, hs⟩ := Fake.bind_inv hs
  obtain ⟨_, hc, hs⟩ := Fake.bind_inv hs
  obtain ⟨h1, h2, h3, h4, h5, -, h7⟩ := Fake.matChecks_inv hc hz hx
  obtain rfl := Except.ok.inj hs
  exact Fake.matrixOp_shape (hop m) (Fake.lti_layout h3 h4 h5 h7) h2 h1

example := C42_lti_recurN_predicts (ltiRecurNCpu_isMatrixOp C38_alternating_case) (A := t3 3 2 2 fun i t k => (i : ℤ) + t * k)
  (zi := t2 3 2 fun i t => (i : ℤ) * t) (x := t3 3 7 2 fun i t k => (i : ℤ) - t * k) (s := [3, 7, 2]) rfl rfl rfl

/-- **C42, `lti_recur2`.** -/
theorem C42_lti_recur2_predicts {op : Op α} (hop : IsMatrixOp 2 op) {A zi x : Tensor α} {s : List Nat} (hz : zi.rank = 2)
    (hx : x.rank = 3) (hs : Fake.ltiRecur2 A zi x = .ok s) : ∃ y, op A zi x = .ok y ∧ y.shape = s := by
  unfold Fake.ltiRecur2 at hs
  obtain ⟨_, hc, hs⟩ := Fake.bind_inv hs
  obtain ⟨h1, h2, h3, h4, h5, -, h7⟩ := Fake.matChecks_inv hc hz hx
  obtain rfl := Except.ok.inj hs
  exact Fake.matrixOp_shape hop (Fake.lti_layout h3 h4 h5 h7) h2 h1

example := C42_lti_recur2_predicts (ltiRecur2Cuda_isMatrixOp C40_right_case) (A := t3 3 2 2 fun i t k => (i : ℤ) + t * k)
  (zi := t2 3 2 fun i t => (i : ℤ) * t) (x := t3 3 7 2 fun i t k => (i : ℤ) - t * k) (s := [3, 7, 2]) rfl rfl rfl

/-- **C42, `recurN`.** -/
theorem C42_recurN_predicts {op : Op α} (hop : ∀ M, IsVaryingOp M op) {A zi x : Tensor α} {s : List Nat} (hz : zi.rank = 2)
    (hx : x.rank = 3) (hs : Fake.recurN A zi x = .ok s) : ∃ y, op A zi x = .ok y ∧ y.shape = s := by
  unfold Fake.recurN at hs
  obtain ⟨m, -, hs⟩ := Fake.bind_inv hs
  obtain ⟨_, hc, hs⟩ := Fake.bind_inv hs
  obtain ⟨h1, h2, h3, h4, h5, h6, h7⟩ := Fake.matChecks_inv hc hz hx
  obtain rfl := Except.ok.inj hs
  exact Fake.varyingOp_shape (hop m) (Fake.lpv_layout h3 h4 h5 (h6 rfl) h7) h2 h1

/-- **C42, `recur2`.** -/
theorem C42_recur2_predicts {op : Op α} (hop : IsVaryingOp 2 op) {A zi x : Tensor α} {s : List Nat} (hz : zi.rank = 2)
    (hx : x.rank = 3) (hs : Fake.recur2 A zi x = .ok s) : ∃ y, op A zi x = .ok y ∧ y.shape = s := by
  unfold Fake.recur2 at hs
  obtain ⟨_, hc, hs⟩ := Fake.bind_inv hs
  obtain ⟨h1, h2, h3, h4, h5, h6, h7⟩ := Fake.matChecks_inv hc hz hx
  obtain rfl := Except.ok.inj hs
  exact Fake.varyingOp_shape hop (Fake.lpv_layout h3 h4 h5 (h6 rfl) h7) h2 h1

example := C42_recur2_predicts (recur2Cuda_isVaryingOp C40_right_case) (A := t4 3 7 2 2 fun i t k j => (i : ℤ) + t * k - j)
  (zi := t2 3 2 fun i t => (i : ℤ) * t) (x := t3 3 7 2 fun i t k => (i : ℤ) - t * k) (s := [3, 7, 2]) rfl rfl rfl

/-- **C42, `hl_lti_recurN`**, for every tiling. -/
theorem C42_hl_lti_recurN_predicts {tile : Helion.Tiler} (ht : Helion.IsTiler tile) {A zi x : Tensor α} {s : List Nat}
    (hz : zi.rank = 2) (hx : x.rank = 3) (hs : Fake.hlLtiRecurN A zi x = .ok s) :
    ∃ y, Helion.hlLtiRecurN tile A zi x = .ok y ∧ y.shape = s := by
  unfold Fake.hlLtiRecurN at hs
  obtain ⟨m, -, hs⟩ := Fake.bind_inv hs
  obtain ⟨_, hc, hs⟩ := Fake.bind_inv hs
  obtain ⟨h1, h2, h3, h4, h5, -, h7⟩ := Fake.matChecks_inv hc hz hx
  obtain rfl := Except.ok.inj ((Fake.tail_ok h1).symm.trans hs)
  exact Fake.matrixOp_shape (Helion.hlLtiRecurN_isMatrixOp tile ht m) (Fake.lti_layout h3 h4 h5 h7) h2 h1

example := C42_hl_lti_recurN_predicts Helion.whole_isTiler (A := t3 3 2 2 fun i t k => (i : ℤ) + t * k)
  (zi := t2 3 2 fun i t => (i : ℤ) * t) (x := t3 3 7 2 fun i t k => (i : ℤ) - t * k) (s := [3, 7, 2]) rfl rfl rfl

/-- **C42, `hl_recurN`**, for every tiling. -/
theorem C42_hl_recurN_predicts {tile : Helion.Tiler} (ht : Helion.IsTiler tile) {A zi x : Tensor α} {s : List Nat}
    (hz : zi.rank = 2) (hx : x.rank = 3) (hs : Fake.hlRecurN A zi x = .ok s) :
    ∃ y, Helion.hlRecurN tile A zi x = .ok y ∧ y.shape = s := by
  unfold Fake.hlRecurN at hs
  obtain ⟨m, -, hs⟩ := Fake.bind_inv hs
  obtain ⟨_, hc, hs⟩ := Fake.bind_inv hs
  obtain ⟨h1, h2, h3, h4, h5, h6, h7⟩ := Fake.matChecks_inv hc hz hx
  obtain rfl := Except.ok.inj ((Fake.tail_ok h1).symm.trans hs)
  exact Fake.varyingOp_shape (Helion.hlRecurN_isVaryingOp tile ht m) (Fake.lpv_layout h3 h4 h5 (h6 rfl) h7) h2 h1

example := C42_hl_recurN_predicts Helion.whole_isTiler (A := t4 3 7 2 2 fun i t k j => (i : ℤ) + t * k - j)
  (zi := t2 3 2 fun i t => (i : ℤ) * t) (x := t3 3 7 2 fun i t k => (i : ℤ) - t * k) (s := [3, 7, 2]) rfl rfl rfl

/-! ## Where the claim is false -/

/-- **C42 is false for more matrices than batch items**: `lti_recurN` computes the result, the shape function rejects the call. -/
theorem C42_more_matrices :
    let A : Tensor ℤ := t3 3 2 2 fun b i j => b + i + 2 * j
    let zi : Tensor ℤ := t2 2 2 fun _ _ => 1
    let x : Tensor ℤ := t3 2 4 2 fun b t i => b + t + i
    shape? (ltiRecurNCpu sequential A zi x) = some [2, 4, 2] ∧ Fails (Fake.ltiRecurN A zi x) :=
  ⟨by decide +kernel, fails_of_isOk (by decide +kernel)⟩

/-- **C42 is false for more matrices than time steps**: `recurN` computes the result, the shape function rejects the call. -/
theorem C42_longer_sequence :
    let A : Tensor ℤ := t3 5 2 2 fun t i j => t + i + 2 * j
    let zi : Tensor ℤ := t2 2 2 fun _ _ => 1
    let x : Tensor ℤ := t3 2 4 2 fun b t i => b + t + i
    shape? (recurNCpu sequential A zi x) = some [2, 4, 2] ∧ Fails (Fake.recurN A zi x) :=
  ⟨by decide +kernel, fails_of_isOk (by decide +kernel)⟩

/-- **C42 is false for `recur2` on the CPU with other state dimensions**: it runs the kernel of `recurN` and accepts them. -/
theorem C42_recur2_any_dimension :
    let A : Tensor ℤ := t3 4 3 3 fun t i j => t + i + 2 * j
    let zi : Tensor ℤ := t2 2 3 fun _ _ => 1
    let x : Tensor ℤ := t3 2 4 3 fun b t i => b + t + i
    shape? (recurNCpu sequential A zi x) = some [2, 4, 3] ∧ Fails (Fake.recur2 A zi x) :=
  ⟨by decide +kernel, fails_of_isOk (by decide +kernel)⟩

/-! ## The hypotheses can be met -/

/-- Two batch items, four steps, dimension two, one sequence per item. -/
example : Fake.recurN (t4 2 4 2 2 fun b t i j => ((b + t + i + 2 * j : Nat) : ℤ)) (t2 2 2 fun _ _ => 1) (t3 2 4 2 fun b t i => ((b + t + i : Nat) : ℤ)) =
    .ok [2, 4, 2] := by rfl

example : ∃ y, recurNCpu alternating (t4 2 4 2 2 fun b t i j => ((b + t + i + 2 * j : Nat) : ℤ)) (t2 2 2 fun _ _ => 1)
    (t3 2 4 2 fun b t i => ((b + t + i : Nat) : ℤ)) = .ok y ∧ y.shape = [2, 4, 2] :=
  C42_recurN_predicts (recurNCpu_isVaryingOp C38_alternating_case) rfl rfl rfl

/-- One decay for three signals. -/
example : shape? (ltiRecurCpu sequential (t1 1 fun _ => (2 : ℤ)) (t1 3 fun _ => 1) (t2 3 4 fun b t => ((b + t : Nat) : ℤ))) = some [3, 4] ∧
    Fake.ltiRecur (t1 1 fun _ => (2 : ℤ)) (t1 3 fun _ => 1) (t2 3 4 fun b t => ((b + t : Nat) : ℤ)) = .ok [3, 4] :=
  ⟨by decide +kernel, rfl⟩

end Props
