import Verif.Proof.Backward
import Verif.Proof.Grad

/-! # The returned gradients satisfy the adjoint identity, summed over the batch -/

namespace Phil.Grad
open Torch Torch.Tensor Spec Finset

variable {α : Type} [CommRing α] [StarRing α]

theorem fails_step {β γ : Type} {x : Res β} {v : β} {f : β → Res γ} (h : x = .ok v) (h' : Fails (f v)) :
    Fails (x >>= f) := by
  subst h; exact h'

theorem ip1_add (n : Nat) (f g h : Nat → α) : ip1 n f (fun i => g i + h i) = ip1 n f g + ip1 n f h := by
  simp [ip1, mul_add, sum_add_distrib]

theorem ip1_congr {n : Nat} {f f' g g' : Nat → α} (hf : ∀ i, i < n → f i = f' i) (hg : ∀ i, i < n → g i = g' i) :
    ip1 n f g = ip1 n f' g' :=
  sum_congr rfl fun i hi => by rw [hf i (mem_range.1 hi), hg i (mem_range.1 hi)]

theorem ip2_add (n m : Nat) (f g h : Nat → Nat → α) :
    ip2 n m f (fun i j => g i j + h i j) = ip2 n m f g + ip2 n m f h := by
  simp [ip2, ip1_add, sum_add_distrib]

/-- Scalar recurrence, summed over the batch. -/
theorem scalar_grad (B N : Nat) (a da init di : Nat → α) (x dx g : Nat → Nat → α) :
    ip2 B N g (fun b n => dScalarRec (fun _ => a b) (fun _ => da b) (init b) (di b) (x b) (dx b) (n + 1)) =
      ∑ b ∈ range B, star (∑ n ∈ range N, star (scalarRec (fun _ => a b) (init b) (x b) n) * scalarAdj N (a b) (g b) n) * da b +
        ip1 B (fun b => star (a b) * scalarAdj N (a b) (g b) 0) di +
        ip2 B N (fun b => scalarAdj N (a b) (g b)) dx := by
  unfold ip2
  rw [show ip1 B (fun b => star (a b) * scalarAdj N (a b) (g b) 0) di =
    ∑ b ∈ range B, star (star (a b) * scalarAdj N (a b) (g b) 0) * di b from rfl, ← sum_add_distrib, ← sum_add_distrib]
  refine sum_congr rfl fun b _ => ?_
  rw [scalar_adjoint N (fun _ => a b) (fun _ => da b) (init b) (di b) (x b) (dx b) (g b) (fun _ => star (a b))
    (fun _ _ _ => rfl), ip1_add]
  have e : ∀ (p q : α), star (star p * q) = p * star q := by
    intro p q; rw [star_mul, star_star, mul_comm]
  unfold scalarAdj
  rw [Nat.sub_zero]
  have : ip1 N (fun n => scalarRec (fun _ => star (a b)) 0 (fun s => g b (N - 1 - s)) (N - n))
      (fun n => da b * scalarRec (fun _ => a b) (init b) (x b) n) =
      star (∑ n ∈ range N, star (scalarRec (fun _ => a b) (init b) (x b) n) *
        scalarRec (fun _ => star (a b)) 0 (fun s => g b (N - 1 - s)) (N - n)) * da b := by
    unfold ip1
    rw [star_sum, sum_mul]
    refine sum_congr rfl fun n _ => ?_
    rw [e]; ring
  rw [this]; ring

/-- One inner product of the matrix case. -/
theorem ip2_outer (N M : Nat) (gx : Nat → Nat → α) (dA : Nat → Nat → Nat → α) (h : Nat → Nat → α) :
    ip2 N M gx (fun n i => ∑ k ∈ range M, dA n i k * h n k) =
      ip3 N M M (fun n i k => gx n i * star (h n k)) dA := by
  unfold ip3 ip2 ip1
  refine sum_congr rfl fun n _ => sum_congr rfl fun i _ => ?_
  rw [mul_sum]
  refine sum_congr rfl fun k _ => ?_
  rw [star_mul, star_star]; ring

/-- Matrix recurrence with any coefficient sequence, summed over the batch. -/
theorem vec_grad (B N M : Nat) (a da : Nat → Nat → Nat → Nat → α) (zi di : Nat → Nat → α) (x dx g : Nat → Nat → Nat → α)
    (C : Nat → Nat → Nat → Nat → α)
    (hc : ∀ b s, 0 < s → s < N → ∀ i k, i < M → k < M → C b s i k = star (a b (N - s) k i)) :
    ip3 B N M g (fun b n => dVecRec M (a b) (da b) (zi b) (di b) (x b) (dx b) (n + 1)) =
      ip4 B N M M (fun b n i k => vecRec M (C b) (fun _ => 0) (fun s => g b (N - 1 - s)) (N - n) i *
          star (vecRec M (a b) (zi b) (x b) n k)) da +
        ip2 B M (fun b i => ∑ k ∈ range M, star (a b 0 k i) * vecRec M (C b) (fun _ => 0) (fun s => g b (N - 1 - s)) N k) di +
        ip3 B N M (fun b n => vecRec M (C b) (fun _ => 0) (fun s => g b (N - 1 - s)) (N - n)) dx := by
  have key : ∀ b, ip2 N M (g b) (fun n => dVecRec M (a b) (da b) (zi b) (di b) (x b) (dx b) (n + 1)) =
      ip3 N M M (fun n i k => vecRec M (C b) (fun _ => 0) (fun s => g b (N - 1 - s)) (N - n) i *
          star (vecRec M (a b) (zi b) (x b) n k)) (da b) +
        ip1 M (fun i => ∑ k ∈ range M, star (a b 0 k i) * vecRec M (C b) (fun _ => 0) (fun s => g b (N - 1 - s)) N k) (di b) +
        ip2 N M (fun n => vecRec M (C b) (fun _ => 0) (fun s => g b (N - 1 - s)) (N - n)) (dx b) := by
    intro b
    rw [vec_adjoint M N (a b) (da b) (zi b) (di b) (x b) (dx b) (g b) (C b) (hc b), ip2_add, ip2_outer]
    ring
  change ∑ b ∈ range B, ip2 N M _ _ = ∑ b ∈ range B, ip3 N M M _ _ + ∑ b ∈ range B, ip1 M _ _ + ∑ b ∈ range B, ip2 N M _ _
  rw [← sum_add_distrib, ← sum_add_distrib]
  exact sum_congr rfl fun b _ => key b

/-- One perturbation for the whole batch: the gradients of the batch items add up. -/
theorem ip_shared (B M Q : Nat) (G : Nat → Nat → Nat → α) (d : Nat → Nat → α) :
    ip3 B M Q G (fun _ => d) = ip2 M Q (fun i k => ∑ b ∈ range B, G b i k) d := by
  unfold ip3 ip2 ip1
  rw [sum_comm]
  refine sum_congr rfl fun i _ => ?_
  rw [sum_comm]
  refine sum_congr rfl fun k _ => ?_
  rw [star_sum, sum_mul]

theorem ip3_congr {B M Q : Nat} {f f' g : Nat → Nat → Nat → α}
    (hf : ∀ b i k, b < B → i < M → k < Q → f b i k = f' b i k) : ip3 B M Q f g = ip3 B M Q f' g :=
  sum_congr rfl fun b hb => sum_congr rfl fun i hi => sum_congr rfl fun k hk => by
    rw [hf b i k (mem_range.1 hb) (mem_range.1 hi) (mem_range.1 hk)]

/-- One perturbation for all time steps: the gradients of the time steps add up. -/
theorem ip4_const_time (B N M Q : Nat) (G : Nat → Nat → Nat → Nat → α) (d : Nat → Nat → Nat → α) :
    ip4 B N M Q G (fun b _ => d b) = ip3 B M Q (fun b i k => ∑ n ∈ range N, G b n i k) d :=
  sum_congr rfl fun b _ => ip_shared N M Q (G b) (d b)

/-- One perturbation for the whole batch of sequences. -/
theorem ip4_shared (B N M Q : Nat) (G : Nat → Nat → Nat → Nat → α) (d : Nat → Nat → Nat → α) :
    ip4 B N M Q G (fun _ => d) = ip3 N M Q (fun n i k => ∑ b ∈ range B, G b n i k) d := by
  unfold ip4 ip3
  rw [sum_comm]
  refine sum_congr rfl fun n _ => ?_
  exact ip_shared B M Q (fun b => G b n) (d n)

end Phil.Grad
