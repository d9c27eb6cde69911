import Verif.Model.Dispatch
import Verif.Spec.Lpc

/-!
# Installations that are supposed to work
-/

namespace Spec
open Torch Torch.Tensor Phil

variable {α : Type} [CommRing α]

/-- The contract of ParaRNN's `parallel_reduce_block_diag`: it solves the block bidiagonal system
`h[t] + jac[t] h[t-1] = rhs[t]` (`h[-1] = 0`) for blocks of size `M`. -/
def IsBlockReduce (M : Nat) (op : Tensor α → Tensor α → Res (Tensor α)) : Prop :=
  ∀ (B T : Nat) (jac : Nat → Nat → Nat → Nat → α) (rhs : Nat → Nat → Nat → α),
    op (t4 B T M M jac) (t3 B T M rhs) =
      .ok (t3 B T M fun b t i => vecRec M (fun t i k => -jac b t i k) (fun _ => 0) (rhs b) (t + 1) i)

/-- Every installed operator computes what it is supposed to compute on the device of the tensors. -/
structure Correct (e : Env α) : Prop where
  ltiRecur : e.ext → IsScalarOp e.ltiRecur
  ltiRecur2 : e.ext → IsMatrixOp 2 e.ltiRecur2
  ltiRecurN : e.ext → e.cuda = false → ∀ M, IsMatrixOp M e.ltiRecurN
  recur2 : e.ext → IsVaryingOp 2 e.recur2
  recurN : e.ext → e.cuda = false → ∀ M, IsVaryingOp M e.recurN
  hlLtiRecurN : e.helion → ∀ M, IsMatrixOp M e.hlLtiRecurN
  hlRecurN : e.helion → ∀ M, IsVaryingOp M e.hlRecurN
  reduce2 : e.pararnn → IsBlockReduce 2 e.reduce2
  reduce3 : e.pararnn → IsBlockReduce 3 e.reduce3
  lpc : IsLpc e.lpc

/-- Helion runs real tensors on a CUDA device. -/
def HelionRuns (e : Env α) : Prop := e.helion ∧ e.cuda ∧ ¬ e.complex

/-- ParaRNN runs real tensors on a CUDA device, for state dimensions 2 and 3. -/
def PararnnRuns (e : Env α) (M : Nat) : Prop := e.pararnn ∧ e.cuda ∧ ¬ e.complex ∧ (M = 2 ∨ M = 3)

/-- The installations for which the time-invariant functions work with states of dimension `M`: an extension used with CUDA
tensors was built for CUDA, and Helion is accompanied by the extension if `M ≤ 2`. -/
def LtiInstall (e : Env α) (M : Nat) : Prop :=
  (e.ext → e.cuda → e.extCuda) ∧ (HelionRuns e → M ≤ 2 → e.ext)

/-- The installations for which the time-varying functions work with states of dimension `M`: an extension used with CUDA
tensors was built for CUDA, ParaRNN is accompanied by the extension or by Helion, and Helion is accompanied by the extension or by
ParaRNN if `M = 2`. -/
def LpvInstall (e : Env α) (M : Nat) : Prop :=
  (e.ext → e.cuda → e.extCuda) ∧ (PararnnRuns e M → e.ext ∨ e.helion) ∧ (HelionRuns e → M = 2 → e.ext ∨ e.pararnn)

end Spec
