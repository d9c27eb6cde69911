import Verif.Props.C89Lpv
import Verif.Props.C91

/-! # C91 for time-varying systems -/

namespace Props
open Torch Torch.Tensor Spec Phil Matrix
open Phil.Lti (ok_pair)
variable {α : Type} [CommRing α] [StarRing α]

/-- **C91, `lpv.state_space`.** With matrices that change in time the difference between the final states is the product of the matrices
`A_t - L_t C_t` times the difference between the initial states, for the unroll factors of C07. -/
theorem C91_lpv_observer {B N M P F R : Nat} (A Bm C D G : Nat → Nat → Nat → Nat → α) (C' D' : Nat → Nat → Nat → Nat → α) (x : Nat → Nat → Nat → α)
    (z z' : Nat → Nat → α) {u u' : Option Int} (hB : 0 < B) (hM : 0 < M) (hN : 0 < N) (hu : FilterUnroll M N u) (hu' : FilterUnroll M N u') :
    ∃ (y : Nat → Nat → Nat → α) (f f' : Nat → Nat → α) (w : Tensor α),
      Lpv.stateSpace (t4 B N M M A) (t3 B N F x) (some (t4 B N M F Bm)) (some (t4 B N P M C)) (some (t4 B N P F D)) (some (t2 B M z)) u none =
        .ok (t3 B N P y, some (t2 B M f)) ∧
      Lpv.stateSpace (t4 B N M M fun b t m k => A b t m k - ∑ p ∈ Finset.range P, G b t m p * C b t p k)
        (t3 B N (F + P) fun b t => beside F (x b t) (y b t))
        (some (t4 B N M (F + P) fun b t m => beside F (fun q => Bm b t m q - ∑ p ∈ Finset.range P, G b t m p * D b t p q) (G b t m)))
        (some (t4 B N R M C')) (some (t4 B N R (F + P) D')) (some (t2 B M z')) u' none = .ok (w, some (t2 B M f')) ∧
      ∀ b, vect M (f b) - vect M (f' b) =
        transition (fun t => mat M M (A b t) - mat M P (G b t) * mat P M (C b t)) 0 N *ᵥ (vect M (z b) - vect M (z' b)) := by
  refine ⟨_, _, _, _, lpv_state_space_eq A Bm C D x z hB hM hN hu, lpv_state_space_eq _ _ C' D' _ z' hB hM hN hu', fun b => ?_⟩
  generalize N = n
  have hsub : ∀ (f g : Nat → α), vect M f - vect M g = vect M fun m => f m - g m := fun _ _ => rfl
  have hmat : ∀ t, mat M M (A b t) - mat M P (G b t) * mat P M (C b t) =
      mat M M fun m k => A b t m k - ∑ p ∈ Finset.range P, G b t m p * C b t p k := by
    intro t
    ext m k
    simp only [mat, Matrix.sub_apply, Matrix.mul_apply, Matrix.of_apply, Finset.sum_range]
  simp only [hmat]
  induction n with
  | zero => rw [transition, one_mulVec]; rfl
  | succ n ih =>
    rw [transition, if_neg (Nat.not_lt_zero n), ← mulVec_mulVec, ← ih, hsub, hsub, ← vect_sum]
    funext m
    simp only [vect, vecRec]
    rw [sum_beside]
    have swap : ∀ (K : Nat) (X : Nat → Nat → α) (g : Nat → α), ∑ k ∈ Finset.range K, (∑ p ∈ Finset.range P, G b n m p * X p k) * g k =
        ∑ p ∈ Finset.range P, G b n m p * ∑ k ∈ Finset.range K, X p k * g k := fun K X g => by
      simp only [Finset.sum_mul, Finset.mul_sum]
      rw [Finset.sum_comm]
      exact Finset.sum_congr rfl fun p _ => Finset.sum_congr rfl fun k _ => by ring
    simp only [sub_mul, mul_sub, mul_add, Finset.sum_sub_distrib, Finset.sum_add_distrib, swap]
    ring

example := C91_lpv_observer (B := 3) (N := 7) (M := 2) (P := 1) (F := 2) (R := 1) (u := none) (u' := some 2) (fun b t i j => (b : ℤ) + t + i * j)
  (fun b t i j => b * t - i * j) (fun b t i j => b * i + t * j) (fun _ t i j => t * i - j) (fun b t i j => b + t * i + j) (fun _ _ i j => i + j)
  (fun _ _ _ _ => 0) (fun b t f => b + t * f) (fun b m => b - m) (fun _ _ => 0) (by decide) (by decide) (by decide)
  (by unfold FilterUnroll GoodUnroll FewPrimes; decide +kernel) (by unfold FilterUnroll GoodUnroll FewPrimes; decide +kernel)

end Props
