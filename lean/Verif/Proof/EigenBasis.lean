import Verif.Torch.Linalg
import Verif.Spec.Eigen
import Mathlib.LinearAlgebra.Eigenspace.Basic
import Mathlib.LinearAlgebra.Matrix.NonsingularInverse
import Mathlib.LinearAlgebra.Matrix.ToLin

/-!
# Eigenvectors of distinct eigenvalues diagonalise a matrix
-/

namespace Spec
open Finset Torch

variable {α : Type} [Field α]

theorem eigenbasis_det {M : Nat} {A : Nat → Nat → α} {l : Nat → α} {v : Nat → Nat → α}
    (hv : ∀ m, m < M → Eigenvector M A (l m) fun i => v i m) (hl : ∀ m p, m < M → p < M → l m = l p → m = p) :
    (mat M M v).det ≠ 0 := by
  have h : LinearIndependent α fun m : Fin M => (mat M M v).col m := by
    refine Module.End.eigenvectors_linearIndependent' (Matrix.toLin' (mat M M A)) (fun m : Fin M => l m)
      (fun m p e => Fin.ext (hl m p m.2 p.2 e)) _ fun m => ?_
    rw [Module.End.hasEigenvector_iff, Module.End.mem_eigenspace_iff]
    obtain ⟨⟨i, hi, hi0⟩, he⟩ := hv m m.2
    refine ⟨?_, fun h => hi0 ?_⟩
    · funext i
      rw [Matrix.toLin'_apply]
      simpa [mat, Matrix.mulVec, dotProduct, Finset.sum_range] using he i i.2
    · have := congrFun h ⟨i, hi⟩
      simpa [mat] using this
  have := Matrix.linearIndependent_cols_iff_isUnit.1 h
  exact ((Matrix.isUnit_iff_isUnit_det _).1 this).ne_zero

/-- The inverse of the matrix of eigenvectors completes a diagonalisation. -/
theorem eigenbasis_diagonalises {M : Nat} {A : Nat → Nat → α} {l : Nat → α} {v : Nat → Nat → α}
    (hv : ∀ m, m < M → Eigenvector M A (l m) fun i => v i m) (hl : ∀ m p, m < M → p < M → l m = l p → m = p) :
    Diagonalises M A l v (fm (mat M M v)⁻¹) := by
  have hd := Ne.isUnit (eigenbasis_det hv hl)
  have h1 : mat M M v * (mat M M v)⁻¹ = 1 := Matrix.mul_nonsing_inv _ hd
  refine ⟨fun i j hi hj => ?_, fun i j hi hj => ?_⟩
  · have e : mat M M A * mat M M v = mat M M fun i m => v i m * l m := by
      rw [← mat_mul]
      refine mat_congr fun i m hi hm => ?_
      rw [(hv m hm).2 i hi, mul_comm]
    have e2 : mat M M A = (mat M M fun i m => v i m * l m) * (mat M M v)⁻¹ := by
      rw [← e, Matrix.mul_assoc, h1, Matrix.mul_one]
    have := congrFun (congrFun e2 ⟨i, hi⟩) ⟨j, hj⟩
    rw [Matrix.mul_apply] at this
    rw [Finset.sum_range]
    refine this.trans (sum_congr rfl fun m _ => ?_)
    simp [mat, fm, hj]
  · have := congrFun (congrFun h1 ⟨i, hi⟩) ⟨j, hj⟩
    rw [Matrix.mul_apply, Matrix.one_apply] at this
    rw [Finset.sum_range]
    simp only [Fin.mk.injEq] at this
    rw [← this]
    refine sum_congr rfl fun m _ => ?_
    simp [mat, fm, hj]

end Spec
