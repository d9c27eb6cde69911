import Verif.Model.HostKernels
import Verif.Model.Scan

/-!
# The compiled ops with 32-bit indices

The kernels receive their sizes as `int` and compute all offsets with `int` arithmetic
(`philtorch/csrc/host_lti_recur.cpp`, `host_lti_recurN.cpp`, `host_recurN.cpp`, `recur2.cuh`, `lti_recur.cu`,
`lti_recur2.cu`, `recur2.cu`).  Verif/Model/HostKernels.lean and Verif/Model/Scan.lean use unbounded indices; here the
registered CPU ops and the CUDA ops are modelled again with the types of the code.

* `int64_t` to `int` at the call of a kernel: the value modulo `2 ^ 32` (`toInt`).
* A product of two `int`s outside of the range of `int` is undefined behaviour: the run is an error (`mul`).
* Pointer arithmetic has 64 bits and is not bounded here.  Sums of `int`s that are not pointer arithmetic are checked (`add`).
* Loop counters stop at an `int`, so that incrementing them does not overflow.
-/

namespace Phil.Int32
open Torch Torch.Tensor Omp Phil.Host

/-- Largest value of a 32-bit `int` (the loop bounds and offsets are `int`s: `philtorch/csrc/host_lti_recur.cpp:5`, `:11`,
`:14`). -/
def intMax : Nat := 2147483647

/-- A value of type `int` (the type of `B`, `T`, `N`, `n_steps`, `total_steps`: `philtorch/csrc/host_lti_recur.cpp:5`,
`philtorch/csrc/lti_recur.cu:74`). -/
def inRange (z : Int) : Prop := -((intMax : Int) + 1) ≤ z ∧ z ≤ (intMax : Int)

instance (z : Int) : Decidable (inRange z) := inferInstanceAs (Decidable (_ ∧ _))

/-- Conversion of a size (`int64_t`) to `int`: the representative modulo `2 ^ 32` in the range of `int`
(`philtorch/csrc/host_lti_recur.cpp:64`, where `int64_t` sizes become `int` arguments). -/
def toInt (n : Nat) : Int := Int.bmod (n : Int) 4294967296

/-- The result of an `int` operation (used by the offsets such as `b * T` in `philtorch/csrc/host_lti_recur.cpp:14`). -/
def int (z : Int) : Res Int := if inRange z then .ok z else .error "signed integer overflow"

/-- `a * b` on `int`s (`philtorch/csrc/host_lti_recur.cpp:14`). -/
def mul (a b : Int) : Res Int := int (a * b)

/-- `a + b` on `int`s (`philtorch/csrc/host_lti_recurN.cpp:20-26`). -/
def add (a b : Int) : Res Int := int (a + b)

/-- `a / b` on non-negative `a`; dividing by zero is undefined behaviour (`philtorch/csrc/lti_recur.cu:42-55`). -/
def div (a b : Int) : Res Int := if b = 0 then .error "division by zero" else .ok (Int.tdiv a b)

/-- `a % b` (`philtorch/csrc/lti_recur.cu:42-55`). -/
def rem (a b : Int) : Res Int := if b = 0 then .error "division by zero" else .ok (Int.tmod a b)

variable {ρ α : Type}

/-- `for (int t = lo; t < hi; ++t) body(t)` where the body may overflow (`philtorch/csrc/host_lti_recur.cpp:17`). -/
def forLoopM (lo : Nat) (hi : Int) (body : Nat → Res (List (Act ρ α))) : Res (List (Act ρ α)) := do
  let l ← (List.range' lo (hi.toNat - lo)).mapM body
  return l.flatten

/-- `#pragma omp parallel for` over `int b = 0; b < n; ++b` where the body may overflow
(`philtorch/csrc/host_lti_recur.cpp:10-11`). -/
def parallelForM (sch : Scheduler ρ α) (B : Bufs α) (r0 : ρ) (n : Int) (p : Nat → Res (List (Act ρ α))) (out : Nat → α) :
    Res (Nat → α) := do
  let l ← (List.range n.toNat).mapM p
  parallelFor sch B r0 n.toNat (fun b => l.getD b []) out

variable [CommRing α]

/-- `philtorch/csrc/host_lti_recur.cpp:4-22`, body of `host_lti_batch_linear_recurrence`: `out_b = out + b * T`. -/
def ltiBatchBody (T : Int) (b : Nat) : Res (List (Act (Regs α) α)) := do
  let off ← mul b T
  return .readC b (fun v r => { r with a := v }) ::
    forLoop 1 T.toNat fun t => [
      .read (off + ((t - 1 : Nat) : Int)).toNat (fun v r => { r with p := v }),
      .read (off + (t : Int)).toNat (fun v r => { r with q := v }),
      .write (off + (t : Int)).toNat (fun r => r.q + r.a * r.p)]

/-- `philtorch/csrc/host_lti_recur.cpp:24-40`, body of `host_lti_shared_linear_recurrence`. -/
def ltiSharedBody (T : Int) (a : α) (b : Nat) : Res (List (Act (Regs α) α)) := do
  let off ← mul b T
  return forLoop 1 T.toNat fun t => [
    .read (off + ((t - 1 : Nat) : Int)).toNat (fun v r => { r with p := v }),
    .read (off + (t : Int)).toNat (fun v r => { r with q := v }),
    .write (off + (t : Int)).toNat (fun r => r.q + a * r.p)]

/-- `philtorch/csrc/host_lti_recur.cpp:42-80`, `lti_recur_cpu_impl`: `n_batches` and `n_steps` are converted to `int` by the
calls of the kernels. -/
def ltiRecurCpu (sch : Scheduler (Regs α) α) (a zi x : Tensor α) : Res (Tensor α) := do
  check (a.rank ≤ 1) "A must be a vector or a scalar"
  check (zi.rank = 1) "zi must be a vector"
  check (2 ≤ x.rank) "IndexError: x.size(1)"
  let nSteps := x.size 1 + 1
  let nBatches := x.size 0
  let z1 ← unsqueeze zi 1
  let output ← cat2 z1 x 1
  let mem ← (if a.rank = 1 ∧ a.numel = nBatches then
      parallelForM sch ⟨data a, a.numel, output.numel⟩ regs0 (toInt nBatches) (ltiBatchBody (toInt nSteps)) (data output)
    else do
      check (a.numel = 1) "RuntimeError: a Tensor with more than one element cannot be converted to Scalar"
      parallelForM sch ⟨data a, a.numel, output.numel⟩ regs0 (toInt nBatches) (ltiSharedBody (toInt nSteps) (data a 0))
        (data output))
  slice (ofData output.shape mem) 1 (some 1) (some (nSteps : Int))

/-- The loops over `t`, `i`, `j` of the four matrix kernels (`host_lti_recurN.cpp:12-31`, `:42-59`; `host_recurN.cpp:89-109`,
`:120-138`): `H_b = H_out + b * T * N`, `H_prev = H_b + (t - 1) * N`, `H_curr = H_b + t * N`, `Arow = A_bt + i * N`.
`aPtr` and `aOff t` are the offsets of `A_b` and `A_bt`. -/
def matBody (T N : Int) (aPtr : Res Int) (aOff : Int → Nat → Res Int) (b : Nat) : Res (List (Act (Regs α) α)) := do
  let aB ← aPtr
  let bT ← mul b T
  let hB ← mul bT N
  forLoopM 1 T fun t => do
    let aT ← aOff aB t
    let prev ← mul ((t - 1 : Nat) : Int) N
    let cur ← mul (t : Int) N
    forLoopM 0 N fun i => do
      let row ← mul (i : Int) N
      return .compute (fun r => { r with sum := 0 }) ::
        (forLoop 0 N.toNat fun j => [
          .readC (aT + row + (j : Int)).toNat (fun v r => { r with p := v }),
          .read (hB + prev + (j : Int)).toNat (fun v r => { r with q := v }),
          .compute (fun r => { r with sum := r.sum + r.p * r.q })]) ++
        [.read (hB + cur + (i : Int)).toNat (fun v r => { r with q := v }),
         .write (hB + cur + (i : Int)).toNat (fun r => r.q + r.sum)]

/-- `a * b * c` on `int`s (`philtorch/csrc/host_lti_recurN.cpp:4-33`). -/
def mul3 (a b c : Int) : Res Int := do
  let ab ← mul a b
  mul ab c

/-- `a * b * c * d` on `int`s (`philtorch/csrc/host_recurN.cpp:81-111`). -/
def mul4 (a b c d : Int) : Res Int := do
  let abc ← mul3 a b c
  mul abc d

/-- `philtorch/csrc/host_lti_recurN.cpp:4-33`, `host_lti_batch_mat_recur_N_order`: `A_b = A + b * N * N`. -/
def ltiBatchMatBody (T N : Int) (b : Nat) : Res (List (Act (Regs α) α)) :=
  matBody T N (mul3 b N N) (fun aB _ => .ok aB) b

/-- `philtorch/csrc/host_lti_recurN.cpp:35-61`, `host_lti_share_mat_recur_N_order`. -/
def ltiShareMatBody (T N : Int) (b : Nat) : Res (List (Act (Regs α) α)) :=
  matBody T N (.ok 0) (fun aB _ => .ok aB) b

/-- `philtorch/csrc/host_recurN.cpp:81-111`, `host_batch_mat_recur_N_order_omp`: `A_b = A + b * T * N * N`,
`A_bt = A_b + t * N * N`. -/
def batchMatBody (T N : Int) (b : Nat) : Res (List (Act (Regs α) α)) :=
  matBody T N (mul4 b T N N) (fun aB t => do return aB + (← mul3 t N N)) b

/-- `philtorch/csrc/host_recurN.cpp:113-140`, `host_share_mat_recur_N_order_omp`: `A_bt = A + t * N * N`. -/
def shareMatBody (T N : Int) (b : Nat) : Res (List (Act (Regs α) α)) :=
  matBody T N (.ok 0) (fun aB t => do return aB + (← mul3 t N N)) b

/-- `philtorch/csrc/host_lti_recurN.cpp:63-108`, `lti_mat_recur_N_order_cpu_impl` (ops `lti_recurN` and `lti_recur2`). -/
def ltiRecurNCpu (sch : Scheduler (Regs α) α) (A zi x : Tensor α) : Res (Tensor α) := do
  check (A.rank = 2 ∨ A.rank = 3) "A must be a 2D or 3D tensor"
  check (3 ≤ x.rank) "IndexError: x.size(2)"
  check (x.size 2 = A.size (-1)) "Last dimension of x must match last dimension of A"
  check (A.size (-1) = A.size (-2)) "Last two dimensions of A must be equal"
  let nSteps := x.size 1 + 1
  let nBatches := x.size 0
  let order := A.size (-1)
  let z1 ← unsqueeze zi 1
  let out ← cat2 z1 x 1
  let mem ← (if A.rank = 3 then
      parallelForM sch ⟨data A, A.numel, out.numel⟩ regs0 (toInt nBatches) (ltiBatchMatBody (toInt nSteps) (toInt order))
        (data out)
    else
      parallelForM sch ⟨data A, A.numel, out.numel⟩ regs0 (toInt nBatches) (ltiShareMatBody (toInt nSteps) (toInt order))
        (data out))
  slice (ofData out.shape mem) 1 (some 1) (some (nSteps : Int))

/-- `philtorch/csrc/host_recurN.cpp:236-281`, `mat_recur_N_order_cpu_omp_impl` (ops `recurN` and `recur2`). -/
def recurNCpu (sch : Scheduler (Regs α) α) (A zi x : Tensor α) : Res (Tensor α) := do
  check (A.rank = 3 ∨ A.rank = 4) "A must be a 3D or 4D tensor"
  check (3 ≤ x.rank) "IndexError: x.size(2)"
  check (x.size 2 = A.size (-1)) "Last dimension of x must match last dimension of A"
  check (A.size (-1) = A.size (-2)) "Last two dimensions of A must be equal"
  let nSteps := x.size 1 + 1
  let nBatches := x.size 0
  let order := A.size (-1)
  let Ac ← padDim A (-3) ((1 : Nat) : Int) 0 0
  let z1 ← unsqueeze zi 1
  let out ← cat2 z1 x 1
  let mem ← (if A.rank = 4 then
      parallelForM sch ⟨data Ac, Ac.numel, out.numel⟩ regs0 (toInt nBatches) (batchMatBody (toInt nSteps) (toInt order))
        (data out)
    else
      parallelForM sch ⟨data Ac, Ac.numel, out.numel⟩ regs0 (toInt nBatches) (shareMatBody (toInt nSteps) (toInt order))
        (data out))
  slice (ofData out.shape mem) 1 (some 1) (some (nSteps : Int))

end Phil.Int32

namespace Phil.Int32
open Torch Torch.Tensor Scan Phil.Cuda

variable {α : Type} [CommRing α]

/-- `philtorch/csrc/recur2.cuh:79-83`, `index2key` at the index `i`. -/
def key (nSteps : Int) (i : Nat) : Nat := (Int.tdiv i nSteps).toNat

/-- `philtorch/csrc/lti_recur.cu:42-55`, `lti_batch_recur_input_op`. -/
def ltiBatchRecurInput (decays : Nat → Res α) (nSteps : Int) (i : Nat) (x : α) : Res (α × α) := do
  let idx ← div i nSteps
  let offset ← rem i nSteps
  if 0 < offset then do
    let d ← decays idx.toNat
    return (d, x)
  else return (0, x)

/-- `philtorch/csrc/lti_recur.cu:57-69`, `lti_shared_recur_input_op`. -/
def ltiSharedRecurInput (decay : α) (nSteps : Int) (i : Nat) (x : α) : Res (α × α) := do
  let offset ← rem i nSteps
  if 0 < offset then return (decay, x) else return (0, x)

/-- What the scan over `total` elements leaves in an output allocated by `at::empty_like` with the contents `junk`
(`philtorch/csrc/lti_recur.cu:128`, `philtorch/csrc/lti_recur2.cu:85`, `philtorch/csrc/recur2.cu:89`). -/
def written {β : Type} (total : Int) (out junk : Nat → β) (i : Nat) : β := if (i : Int) < total then out i else junk i

/-- `philtorch/csrc/lti_recur.cu:113-158`, `lti_recur_cuda_impl`: `n_steps` and `n_batches * n_steps` (computed with 64 bits)
are converted to `int`.  `junk`: contents of the uninitialised output. -/
def ltiRecurCuda (scan : Scanner (α × α)) (junk : Nat → α × α) (a zi x : Tensor α) : Res (Tensor α) := do
  check (a.rank ≤ 1) "A must be a vector or a scalar"
  check (zi.rank = 1) "zi must be a vector"
  check (2 ≤ x.rank) "IndexError: x.size(1)"
  let nSteps := x.size 1 + 1
  let nBatches := x.size 0
  let z1 ← unsqueeze zi 1
  let xc ← cat2 z1 x 1
  let total := toInt (nBatches * nSteps)
  let elems ← (if a.rank = 1 ∧ a.numel = nBatches then
      collect (0, 0) total.toNat fun i => do
        let xi ← load (data xc) xc.numel i
        ltiBatchRecurInput (load (data a) a.numel) (toInt nSteps) i xi
    else do
      check (a.numel = 1) "RuntimeError: a Tensor with more than one element cannot be converted to Scalar"
      collect (0, 0) total.toNat fun i => do
        let xi ← load (data xc) xc.numel i
        ltiSharedRecurInput (data a 0) (toInt nSteps) i xi)
  let out := written total (scan recurOp (key (toInt nSteps)) total.toNat elems) junk
  slice (ofData xc.shape fun i => (out i).2) 1 (some 1) (some (nSteps : Int))

/-- `philtorch/csrc/recur2.cuh:48-62`, `lti_batch_A_input_op`: `idx = i / n_steps * 4` is computed for every `i`. -/
def ltiBatchAInput (A : Nat → Res α) (nSteps : Int) (i : Nat) (x0 x1 : α) : Res (Sq2 α) := do
  let q ← div i nSteps
  let idx ← mul q 4
  let offset ← rem i nSteps
  if 0 < offset then do
    let a ← A idx.toNat
    let b ← A (← add idx 1).toNat
    let c ← A (← add idx 2).toNat
    let d ← A (← add idx 3).toNat
    return ⟨a, b, c, d, x0, x1⟩
  else return ⟨0, 0, 0, 0, x0, x1⟩

/-- `philtorch/csrc/recur2.cuh:64-77`, `lti_share_A_input_op`. -/
def ltiShareAInput (A : Nat → Res α) (nSteps : Int) (i : Nat) (x0 x1 : α) : Res (Sq2 α) := do
  let offset ← rem i nSteps
  if 0 < offset then do
    let a ← A 0
    let b ← A 1
    let c ← A 2
    let d ← A 3
    return ⟨a, b, c, d, x0, x1⟩
  else return ⟨0, 0, 0, 0, x0, x1⟩

/-- `philtorch/csrc/recur2.cuh:33-46`, `share_A_input_op`. -/
def shareAInput (A : Nat → Res α) (nSteps : Int) (i : Nat) (x0 x1 : α) : Res (Sq2 α) := do
  let idx ← rem i nSteps
  let a ← A idx.toNat
  let b ← A (← add idx nSteps).toNat
  let c ← A (← add idx (← mul nSteps 2)).toNat
  let d ← A (← add idx (← mul nSteps 3)).toNat
  return ⟨a, b, c, d, x0, x1⟩

/-- The zip iterator of `philtorch/csrc/recur2.cu:34-36`: `A + total_steps * 2`, `A + total_steps * 3` are computed once,
before the scan starts. -/
def batchAInput (A : Nat → Res α) (total total2 total3 : Int) (i : Nat) (x0 x1 : α) : Res (Sq2 α) := do
  let a ← A i
  let b ← A (total + (i : Int)).toNat
  let c ← A (total2 + (i : Int)).toNat
  let d ← A (total3 + (i : Int)).toNat
  return ⟨a, b, c, d, x0, x1⟩

/-- The two rows of the input, `x[i]` and `(x + total_steps)[i]` (`philtorch/csrc/lti_recur2.cu:18-40`,
`philtorch/csrc/recur2.cu:18-41`). -/
def zip2 (xc : Tensor α) (total : Int) (f : Nat → α → α → Res (Sq2 α)) (i : Nat) : Res (Sq2 α) := do
  let x0 ← load (data xc) xc.numel i
  let x1 ← load (data xc) xc.numel (total + (i : Int)).toNat
  f i x0 x1

/-- `out.t().reshape({n_batches, n_steps, 2}).slice(1, 1, n_steps)` (`lti_recur2.cu:109-112`, `recur2.cu:113-116`): the scan
over `total` elements wrote `out[i]` and `(out + total_steps)[i]`, everything else is uninitialised. -/
def unpack2 (rows : Nat) (total : Int) (nBatches nSteps : Nat) (out : Nat → Sq2 α) (junk : Nat → α) : Res (Tensor α) := do
  let o := ofData [2, rows] fun j =>
    if (j : Int) < total then (out j).e
    else if (j : Int) < 2 * total then (out ((j : Int) - total).toNat).f else junk j
  let ot ← transpose o 0 1
  check (ot.numel = nBatches * nSteps * 2) "RuntimeError: shape is invalid for input"
  slice (ofData [nBatches, nSteps, 2] (data ot)) 1 (some 1) (some (nSteps : Int))

/-- `philtorch/csrc/lti_recur2.cu:66-113`, `lti_mat_recur_second_order_cuda_impl`. -/
def ltiRecur2Cuda (scan : Scanner (Sq2 α)) (junk : Nat → α) (A zi x : Tensor α) : Res (Tensor α) := do
  check (A.rank = 2 ∨ A.rank = 3) "A must be a 2D or 3D tensor"
  check (3 ≤ x.rank) "IndexError: x.size(2)"
  check (x.size 2 = 2) "Input x must have a last dimension of size 2"
  check (A.size (-1) = 2 ∧ A.size (-2) = 2) "Last two dimensions of A must be of size 2"
  let nSteps := x.size 1 + 1
  let nBatches := x.size 0
  let z1 ← unsqueeze zi 1
  let xz ← cat2 z1 x 1
  let xv ← viewRows xz 2
  let xc ← transpose xv 0 1
  let total := toInt (nBatches * nSteps)
  let elems ← (if A.rank = 3 then
      collect Sq2.zero total.toNat (zip2 xc total (ltiBatchAInput (load (data A) A.numel) (toInt nSteps)))
    else
      collect Sq2.zero total.toNat (zip2 xc total (ltiShareAInput (load (data A) A.numel) (toInt nSteps))))
  unpack2 (xv.size 0) total nBatches nSteps (scan recur2Op (key (toInt nSteps)) total.toNat elems) junk

/-- `philtorch/csrc/recur2.cu:69-117`, `mat_recur_second_order_cuda_impl`. -/
def recur2Cuda (scan : Scanner (Sq2 α)) (junk : Nat → α) (A zi x : Tensor α) : Res (Tensor α) := do
  check (A.rank = 3 ∨ A.rank = 4) "A must be a 3D or 4D tensor"
  check (3 ≤ x.rank) "IndexError: x.size(2)"
  check (x.size 2 = 2) "Input x must have a last dimension of size 2"
  check (A.size (-1) = 2 ∧ A.size (-2) = 2) "Last two dimensions of A must be of size 2"
  let nSteps := x.size 1 + 1
  let nBatches := x.size 0
  let Ap ← padDim A (-3) ((1 : Nat) : Int) 0 0
  let Av ← viewRows Ap 4
  let Ac ← transpose Av 0 1
  let z1 ← unsqueeze zi 1
  let xz ← cat2 z1 x 1
  let xv ← viewRows xz 2
  let xc ← transpose xv 0 1
  let total := toInt (nBatches * nSteps)
  let elems ← (if A.rank = 4 then do
      let total2 ← mul total 2
      let total3 ← mul total 3
      collect Sq2.zero total.toNat (zip2 xc total (batchAInput (load (data Ac) Ac.numel) total total2 total3))
    else
      collect Sq2.zero total.toNat (zip2 xc total (shareAInput (load (data Ac) Ac.numel) (toInt nSteps))))
  unpack2 (xv.size 0) total nBatches nSteps (scan recur2Op (key (toInt nSteps)) total.toNat elems) junk

end Phil.Int32
