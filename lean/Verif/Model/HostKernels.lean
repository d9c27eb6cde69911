import Verif.Model.Omp

/-!
# Model of the compiled CPU ops

`philtorch/csrc/host_lti_recur.cpp`, `host_lti_recurN.cpp` and the registered (`_omp`) kernels of `host_recurN.cpp`.
The ops `lti_recur2` and `recur2` are registered with the same CPU functions as `lti_recurN` and `recurN`.
Sums and products are those of the number type, in the order of the source; no law of arithmetic is assumed here, so that the
same definitions run with rounded numbers (C59).
-/

namespace Phil.Host
open Torch Torch.Tensor Omp

variable {α : Type} [Zero α] [Add α] [Mul α]

/-- Local variables of the kernels (e.g. `philtorch/csrc/host_lti_recur.cpp:13`, `philtorch/csrc/host_lti_recurN.cpp:19-25`). -/
structure Regs (α : Type) where
  /-- `a_b` -/
  a : α
  /-- first operand -/
  p : α
  /-- second operand -/
  q : α
  /-- `sum` -/
  sum : α

/-- All local variables zero (they are written before they are read, e.g. `philtorch/csrc/host_lti_recurN.cpp:25`). -/
def regs0 : Regs α := ⟨0, 0, 0, 0⟩

/-- `philtorch/csrc/host_lti_recur.cpp:4-22`, body of the loop over `b` of `host_lti_batch_linear_recurrence`. -/
def ltiBatchBody (T b : Nat) : List (Act (Regs α) α) :=
  .readC b (fun v r => { r with a := v }) ::
    forLoop 1 T fun t => [
      .read (b * T + (t - 1)) (fun v r => { r with p := v }),
      .read (b * T + t) (fun v r => { r with q := v }),
      .write (b * T + t) (fun r => r.q + r.a * r.p)]

/-- `philtorch/csrc/host_lti_recur.cpp:24-40`, body of the loop over `b` of `host_lti_shared_linear_recurrence`. -/
def ltiSharedBody (T : Nat) (a : α) (b : Nat) : List (Act (Regs α) α) :=
  forLoop 1 T fun t => [
    .read (b * T + (t - 1)) (fun v r => { r with p := v }),
    .read (b * T + t) (fun v r => { r with q := v }),
    .write (b * T + t) (fun r => r.q + a * r.p)]

/-- `philtorch/csrc/host_lti_recur.cpp:42-80`, `lti_recur_cpu_impl`.  The checks on scalar types have no counterpart. -/
def ltiRecurCpu (sch : Scheduler (Regs α) α) (a zi x : Tensor α) : Res (Tensor α) := do
  check (a.rank ≤ 1) "A must be a vector or a scalar"
  check (zi.rank = 1) "zi must be a vector"
  check (2 ≤ x.rank) "IndexError: x.size(1)"
  let nSteps := x.size 1 + 1
  let nBatches := x.size 0
  let z1 ← unsqueeze zi 1
  let output ← cat2 z1 x 1
  let mem ← (if a.rank = 1 ∧ a.numel = nBatches then
      parallelFor sch ⟨data a, a.numel, output.numel⟩ regs0 nBatches (ltiBatchBody nSteps) (data output)
    else do
      check (a.numel = 1) "RuntimeError: a Tensor with more than one element cannot be converted to Scalar"
      parallelFor sch ⟨data a, a.numel, output.numel⟩ regs0 nBatches (ltiSharedBody nSteps (data a 0)) (data output))
  slice (ofData output.shape mem) 1 (some 1) (some (nSteps : Int))

/-- The loops over `t`, `i`, `j` that the four matrix kernels share; `aOff t` is the offset in `A` of the matrix used at
step `t` (`host_lti_recurN.cpp:17-31`, `:46-59`; `host_recurN.cpp:94-109`, `:124-138`). -/
def matBody (T N : Nat) (aOff : Nat → Nat) (b : Nat) : List (Act (Regs α) α) :=
  forLoop 1 T fun t =>
    forLoop 0 N fun i =>
      .compute (fun r => { r with sum := 0 }) ::
      (forLoop 0 N fun j => [
        .readC (aOff t + i * N + j) (fun v r => { r with p := v }),
        .read (b * T * N + (t - 1) * N + j) (fun v r => { r with q := v }),
        .compute (fun r => { r with sum := r.sum + r.p * r.q })]) ++
      [.read (b * T * N + t * N + i) (fun v r => { r with q := v }),
       .write (b * T * N + t * N + i) (fun r => r.q + r.sum)]

/-- `philtorch/csrc/host_lti_recurN.cpp:4-33`, `host_lti_batch_mat_recur_N_order`: `A_b = A + b * N * N`. -/
def ltiBatchMatBody (T N b : Nat) : List (Act (Regs α) α) := matBody T N (fun _ => b * N * N) b

/-- `philtorch/csrc/host_lti_recurN.cpp:35-61`, `host_lti_share_mat_recur_N_order`. -/
def ltiShareMatBody (T N b : Nat) : List (Act (Regs α) α) := matBody T N (fun _ => 0) b

/-- `philtorch/csrc/host_recurN.cpp:81-111`, `host_batch_mat_recur_N_order_omp`: `A_bt = A + b * T * N * N + t * N * N`. -/
def batchMatBody (T N b : Nat) : List (Act (Regs α) α) := matBody T N (fun t => b * T * N * N + t * N * N) b

/-- `philtorch/csrc/host_recurN.cpp:113-140`, `host_share_mat_recur_N_order_omp`: `A_bt = A + t * N * N`. -/
def shareMatBody (T N b : Nat) : List (Act (Regs α) α) := matBody T N (fun t => t * N * N) b

/-- `philtorch/csrc/host_lti_recurN.cpp:63-108`, `lti_mat_recur_N_order_cpu_impl` (ops `lti_recurN` and `lti_recur2`). -/
def ltiRecurNCpu (sch : Scheduler (Regs α) α) (A zi x : Tensor α) : Res (Tensor α) := do
  check (A.rank = 2 ∨ A.rank = 3) "A must be a 2D or 3D tensor"
  check (3 ≤ x.rank) "IndexError: x.size(2)"
  check (x.size 2 = A.size (-1)) "Last dimension of x must match last dimension of A"
  check (A.size (-1) = A.size (-2)) "Last two dimensions of A must be equal"
  let nSteps := x.size 1 + 1
  let nBatches := x.size 0
  let order := A.size (-1)
  let z1 ← unsqueeze zi 1
  let out ← cat2 z1 x 1
  let mem ← (if A.rank = 3 then
      parallelFor sch ⟨data A, A.numel, out.numel⟩ regs0 nBatches (ltiBatchMatBody nSteps order) (data out)
    else
      parallelFor sch ⟨data A, A.numel, out.numel⟩ regs0 nBatches (ltiShareMatBody nSteps order) (data out))
  slice (ofData out.shape mem) 1 (some 1) (some (nSteps : Int))

/-- `philtorch/csrc/host_recurN.cpp:236-281`, `mat_recur_N_order_cpu_omp_impl` (ops `recurN` and `recur2`):
`at::pad(A, {0, 0, 0, 0, 1, 0})` puts a zero matrix in front of the sequence. -/
def recurNCpu (sch : Scheduler (Regs α) α) (A zi x : Tensor α) : Res (Tensor α) := do
  check (A.rank = 3 ∨ A.rank = 4) "A must be a 3D or 4D tensor"
  check (3 ≤ x.rank) "IndexError: x.size(2)"
  check (x.size 2 = A.size (-1)) "Last dimension of x must match last dimension of A"
  check (A.size (-1) = A.size (-2)) "Last two dimensions of A must be equal"
  let nSteps := x.size 1 + 1
  let nBatches := x.size 0
  let order := A.size (-1)
  let Ac ← padDim A (-3) ((1 : Nat) : Int) 0 0
  let z1 ← unsqueeze zi 1
  let out ← cat2 z1 x 1
  let mem ← (if A.rank = 4 then
      parallelFor sch ⟨data Ac, Ac.numel, out.numel⟩ regs0 nBatches (batchMatBody nSteps order) (data out)
    else
      parallelFor sch ⟨data Ac, Ac.numel, out.numel⟩ regs0 nBatches (shareMatBody nSteps order) (data out))
  slice (ofData out.shape mem) 1 (some 1) (some (nSteps : Int))

end Phil.Host
