import Verif.Spec.Grad
import Mathlib.Analysis.Calculus.Deriv.Mul
import Mathlib.Analysis.Calculus.Deriv.Add

/-! # `dScalarRec` and `dVecRec` are derivatives -/

namespace Spec
open Finset
variable {𝕜 : Type} [NontriviallyNormedField 𝕜]

theorem hasDerivAt_line (a da : 𝕜) : HasDerivAt (fun s : 𝕜 => a + s * da) da 0 := by
  simpa using ((hasDerivAt_id (0 : 𝕜)).mul_const da).const_add a

theorem hasDerivAt_scalarRec (a da : Nat → 𝕜) (init dinit : 𝕜) (x dx : Nat → 𝕜) (n : Nat) :
    HasDerivAt (fun s : 𝕜 => scalarRec (fun t => a t + s * da t) (init + s * dinit) (fun t => x t + s * dx t) n)
      (dScalarRec a da init dinit x dx n) 0 := by
  induction n with
  | zero => exact hasDerivAt_line init dinit
  | succ n ih =>
    simp only [scalarRec, dScalarRec]
    have h := ((hasDerivAt_line (a n) (da n)).mul ih).add (hasDerivAt_line (x n) (dx n))
    refine h.congr_deriv ?_
    simp only [zero_mul, add_zero]
    ring

theorem hasDerivAt_vecRec (M : Nat) (A dA : Nat → Nat → Nat → 𝕜) (init dinit : Nat → 𝕜) (x dx : Nat → Nat → 𝕜) (n i : Nat) :
    HasDerivAt (fun s : 𝕜 => vecRec M (fun t i k => A t i k + s * dA t i k) (fun i => init i + s * dinit i)
      (fun t i => x t i + s * dx t i) n i) (dVecRec M A dA init dinit x dx n i) 0 := by
  induction n generalizing i with
  | zero => exact hasDerivAt_line _ _
  | succ n ih =>
    simp only [vecRec, dVecRec]
    have h := (HasDerivAt.fun_sum (u := range M) fun k _ => (hasDerivAt_line (A n i k) (dA n i k)).mul (ih k)).add
      (hasDerivAt_line (x n i) (dx n i))
    refine h.congr_deriv ?_
    simp only [zero_mul, add_zero]
    rw [← sum_add_distrib]
    congr 1
    exact sum_congr rfl fun k _ => by ring

end Spec
