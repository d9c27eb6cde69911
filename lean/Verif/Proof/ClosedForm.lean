import Verif.Spec.ClosedForm
import Verif.Proof.Stream
import Verif.Proof.Transfer
import Mathlib.LinearAlgebra.Matrix.Charpoly.Coeff

/-! # Solutions of the state recursion in closed form -/

namespace Spec
open Torch Finset Matrix
variable {α : Type} [CommRing α]

theorem vect_sum {M F : Nat} (g : Nat → Nat → α) (x : Nat → α) :
    vect M (fun k => ∑ f ∈ range F, g k f * x f) = mat M F g *ᵥ vect F x := by
  funext m
  simp only [vect, mulVec, dotProduct, mat, of_apply]
  exact Finset.sum_range fun f => g m f * x f

/-- The state after `t` steps. -/
theorem vecRec_closed {M : Nat} (A : Nat → Nat → α) (z : Nat → α) (v : Nat → Nat → α) (t : Nat) :
    vect M (vecRec M (fun _ => A) z v t) =
      mat M M A ^ t *ᵥ vect M z + ∑ k ∈ range t, mat M M A ^ (t - 1 - k) *ᵥ vect M (v k) := by
  induction t with
  | zero => simp [vecRec]
  | succ t ih =>
    have e : vect M (vecRec M (fun _ => A) z v (t + 1)) =
        mat M M A *ᵥ vect M (vecRec M (fun _ => A) z v t) + vect M (v t) := by
      rw [← vect_sum]; rfl
    rw [e, ih, mulVec_add, mulVec_mulVec, ← pow_succ', sum_range_succ, ← add_assoc]
    refine congrArg₂ (· + ·) (congrArg₂ (· + ·) rfl ?_) ?_
    · rw [mulVec_sum]
      refine sum_congr rfl fun k hk => ?_
      have := mem_range.1 hk
      rw [mulVec_mulVec, ← pow_succ']
      exact congrArg (fun n => mat M M A ^ n *ᵥ vect M (v k)) (by omega)
    · simp

theorem transition_self {M : Nat} (A : Nat → Matrix (Fin M) (Fin M) α) (k : Nat) : transition A k k = 1 := by
  cases k with
  | zero => rfl
  | succ k => rw [transition, if_pos k.lt_succ_self]

/-- The state of a time-varying recursion after `t` steps. -/
theorem vecRec_transition {M : Nat} (A : Nat → Nat → Nat → α) (z : Nat → α) (v : Nat → Nat → α) (t : Nat) :
    vect M (vecRec M A z v t) = transition (fun t => mat M M (A t)) 0 t *ᵥ vect M z +
      ∑ k ∈ range t, transition (fun t => mat M M (A t)) (k + 1) t *ᵥ vect M (v k) := by
  induction t with
  | zero => simp [vecRec, transition]
  | succ t ih =>
    have e : vect M (vecRec M A z v (t + 1)) = mat M M (A t) *ᵥ vect M (vecRec M A z v t) + vect M (v t) := by
      rw [← vect_sum]; rfl
    rw [e, ih, mulVec_add, mulVec_mulVec, sum_range_succ, ← add_assoc, transition_self, one_mulVec]
    refine congrArg₂ (· + ·) (congrArg₂ (· + ·) rfl ?_) rfl
    rw [mulVec_sum]
    refine sum_congr rfl fun k hk => ?_
    have := mem_range.1 hk
    rw [mulVec_mulVec, transition, if_neg (by omega)]

theorem scalarRec_closed (a z : α) (x : Nat → α) (t : Nat) :
    scalarRec (fun _ => a) z x t = a ^ t * z + ∑ k ∈ range t, a ^ (t - 1 - k) * x k := by
  induction t with
  | zero => simp [scalarRec]
  | succ t ih =>
    rw [scalarRec, ih, sum_range_succ, mul_add, ← add_assoc, Nat.add_sub_cancel, Nat.sub_self, pow_zero, one_mul, pow_succ,
      mul_sum]
    refine congrArg₂ (· + ·) (congrArg₂ (· + ·) (by ring) (sum_congr rfl fun k hk => ?_)) rfl
    have := mem_range.1 hk
    rw [← mul_assoc, ← pow_succ']
    exact congrArg (a ^ · * x k) (by omega)

theorem scalarRec_prod (a : Nat → α) (z : α) (x : Nat → α) (t : Nat) :
    scalarRec a z x t = (∏ s ∈ range t, a s) * z + ∑ k ∈ range t, (∏ s ∈ Ico (k + 1) t, a s) * x k := by
  induction t with
  | zero => simp [scalarRec]
  | succ t ih =>
    rw [scalarRec, ih, sum_range_succ, mul_add, ← add_assoc, prod_range_succ, Ico_self, prod_empty, one_mul, mul_sum]
    refine congrArg₂ (· + ·) (congrArg₂ (· + ·) (by ring) (sum_congr rfl fun k hk => ?_)) rfl
    have := mem_range.1 hk
    rw [prod_Ico_succ_top (by omega)]
    ring

theorem charpoly_top {M : Nat} (A : Matrix (Fin M) (Fin M) α) : A.charpoly.coeff M = 1 := by
  nontriviality α
  have h := A.charpoly_monic
  rwa [Polynomial.Monic, Polynomial.leadingCoeff, Matrix.charpoly_natDegree_eq_dim, Fintype.card_fin] at h

theorem denom_charCoefs {M : Nat} (A : Matrix (Fin M) (Fin M) α) {k : Nat} (hk : k ≤ M) :
    denom M (charCoefs A) k = A.charpoly.coeff (M - k) := by
  cases k with
  | zero => rw [denom, if_pos rfl, Nat.sub_zero, charpoly_top]
  | succ k =>
    rw [denom, if_neg (by omega), if_pos (by omega), charCoefs]
    exact congrArg _ (by omega)

theorem cayley {M : Nat} (A : Matrix (Fin M) (Fin M) α) : ∑ j ∈ range (M + 1), A.charpoly.coeff j • A ^ j = 0 := by
  nontriviality α
  rw [← A.aeval_self_charpoly]
  refine (Polynomial.aeval_eq_sum_range' ?_ A).symm
  rw [Matrix.charpoly_natDegree_eq_dim, Fintype.card_fin]; exact M.lt_succ_self

/-- The characteristic polynomial annihilates the impulse response after `M` samples. -/
theorem conv_markov {M : Nat} (A : Matrix (Fin M) (Fin M) α) (b c : Fin M → α) (d : α) {n : Nat} (hn : M < n) :
    conv (denom M (charCoefs A)) (markov A b c d) n = 0 := by
  have h1 : conv (denom M (charCoefs A)) (markov A b c d) n =
      ∑ k ∈ range (M + 1), denom M (charCoefs A) k * markov A b c d (n - k) := by
    refine (sum_subset (range_mono (show M + 1 ≤ n + 1 by omega)) fun k _ hk => ?_).symm
    have : ¬ k < M + 1 := fun h => hk (mem_range.2 h)
    rw [denom, if_neg (by omega), if_neg (by omega), zero_mul]
  rw [h1, ← sum_range_reflect]
  have h2 : ∀ j ∈ range (M + 1), denom M (charCoefs A) (M + 1 - 1 - j) * markov A b c d (n - (M + 1 - 1 - j)) =
      c ⬝ᵥ ((A ^ (n - 1 - M) * (A.charpoly.coeff j • A ^ j)) *ᵥ b) := by
    intro j hj
    have := mem_range.1 hj
    rw [denom_charCoefs A (by omega), markov, if_neg (by omega), mul_smul_comm, ← pow_add, smul_mulVec, dotProduct_smul,
      smul_eq_mul, show M - (M + 1 - 1 - j) = j by omega, show n - (M + 1 - 1 - j) - 1 = n - 1 - M + j by omega]
  rw [sum_congr rfl h2, ← dotProduct_sum, ← sum_mulVec, ← mul_sum, cayley, mul_zero, zero_mulVec, dotProduct_zero]

end Spec
