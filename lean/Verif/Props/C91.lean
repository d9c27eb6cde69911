import Verif.Props.C57

/-!
# C91: observers

A model of a system that reads the signal and the output of the system and corrects its state by `L (y - C s - D x)`.
-/

namespace Props
open Torch Torch.Tensor Spec Phil Matrix
open Phil.Lti (ok_pair)
variable {α : Type} [CommRing α]

/-- The vectors `x` (length `F`) and `y` one after the other. -/
def beside (F : Nat) (x y : Nat → α) : Nat → α := fun q => if q < F then x q else y (q - F)

theorem sum_beside (F P : Nat) (g h x y : Nat → α) :
    ∑ q ∈ Finset.range (F + P), beside F g h q * beside F x y q = ∑ f ∈ Finset.range F, g f * x f + ∑ p ∈ Finset.range P, h p * y p := by
  rw [Finset.sum_range_add]
  refine congrArg₂ (· + ·) (Finset.sum_congr rfl fun f hf => ?_) (Finset.sum_congr rfl fun p _ => ?_)
  · rw [beside, beside, if_pos (Finset.mem_range.1 hf), if_pos (Finset.mem_range.1 hf)]
  · rw [beside, beside, if_neg (by omega), if_neg (by omega), Nat.add_sub_cancel_left]

variable [StarRing α]

/-- **C91, `lti.state_space`.** The observer runs with `A - L C` on `(x, y)` with the input matrix `(B - L D, L)`.  Whatever the signal,
the difference between the final states is `(A - L C)^N` times the difference between the initial states. -/
theorem C91_observer {B N M P F R : Nat} (A Bm C D G : Nat → Nat → Nat → α) (C' D' x : Nat → Nat → Nat → α) (z z' : Nat → Nat → α) {u u' : Option Int}
    (hM : 0 < M) (hN : 0 < N) (hu : ∀ i, u = some i → 1 ≤ i) (hu' : ∀ i, u' = some i → 1 ≤ i) :
    ∃ (y : Nat → Nat → Nat → α) (f f' : Nat → Nat → α) (w : Tensor α),
      Lti.stateSpace (t3 B M M A) (t3 B N F x) (some (t3 B M F Bm)) (some (t3 B P M C)) (some (t3 B P F D)) (some (t2 B M z)) u none =
        .ok (t3 B N P y, some (t2 B M f)) ∧
      Lti.stateSpace (t3 B M M fun b m k => A b m k - ∑ p ∈ Finset.range P, G b m p * C b p k)
        (t3 B N (F + P) fun b t => beside F (x b t) (y b t))
        (some (t3 B M (F + P) fun b m => beside F (fun q => Bm b m q - ∑ p ∈ Finset.range P, G b m p * D b p q) (G b m)))
        (some (t3 B R M C')) (some (t3 B R (F + P) D')) (some (t2 B M z')) u' none = .ok (w, some (t2 B M f')) ∧
      ∀ b, vect M (f b) - vect M (f' b) = (mat M M (A b) - mat M P (G b) * mat P M (C b)) ^ N *ᵥ (vect M (z b) - vect M (z' b)) := by
  refine ⟨fun b t p => ∑ m ∈ Finset.range M, C b p m * vecRec M (fun _ => A b) (z b)
      (fun t k => ∑ f ∈ Finset.range F, Bm b k f * x b t f) t m + ∑ f ∈ Finset.range F, D b p f * x b t f,
    fun b m => vecRec M (fun _ => A b) (z b) (fun t k => ∑ f ∈ Finset.range F, Bm b k f * x b t f) N m, _, _,
    Lti.stateSpace_eq (.batched A) (.batchMat F Bm x) (.batchMat P C) (.batchMat P F D x) (.full z) hM hN hu,
    Lti.stateSpace_eq (.batched _) (.batchMat (F + P) _ _) (.batchMat R _) (.batchMat R (F + P) _ _) (.full z') hM hN hu', fun b => ?_⟩
  generalize N = n
  have hsub : ∀ (f g : Nat → α), vect M f - vect M g = vect M fun m => f m - g m := fun _ _ => rfl
  have hmat : mat M M (A b) - mat M P (G b) * mat P M (C b) = mat M M fun m k => A b m k - ∑ p ∈ Finset.range P, G b m p * C b p k := by
    ext m k
    simp only [mat, Matrix.sub_apply, Matrix.mul_apply, Matrix.of_apply, Finset.sum_range]
  rw [hmat]
  induction n with
  | zero => rw [pow_zero, one_mulVec]; rfl
  | succ n ih =>
    rw [pow_succ', ← mulVec_mulVec, ← ih, hsub, hsub, ← vect_sum]
    funext m
    simp only [vect, vecRec]
    rw [sum_beside]
    have swap : ∀ (K : Nat) (X : Nat → Nat → α) (g : Nat → α), ∑ k ∈ Finset.range K, (∑ p ∈ Finset.range P, G b m p * X p k) * g k =
        ∑ p ∈ Finset.range P, G b m p * ∑ k ∈ Finset.range K, X p k * g k := fun K X g => by
      simp only [Finset.sum_mul, Finset.mul_sum]
      rw [Finset.sum_comm]
      exact Finset.sum_congr rfl fun p _ => Finset.sum_congr rfl fun k _ => by ring
    simp only [sub_mul, mul_sub, mul_add, Finset.sum_sub_distrib, Finset.sum_add_distrib, swap]
    ring

example := C91_observer (B := 3) (N := 7) (M := 2) (P := 1) (F := 2) (R := 1) (u := none) (u' := some 2) (fun b i j => (b : ℤ) + i * j) (fun b i j => b - i * j)
  (fun b i j => b * i + j) (fun _ i j => i - j) (fun b i j => b + i + j) (fun _ i j => i + j) (fun _ _ _ => 0) (fun b t f => b + t * f) (fun b m => b - m)
  (fun _ _ => 0) (by decide) (by decide) (by simp) (by rintro i ⟨⟩; decide)

/-- **C91: the observer that knows.** If a power of `A - L C` up to the length of the signal vanishes, the observer ends in the state of
the system, whatever both initial states and the signal. -/
theorem C91_deadbeat {B N M P F R d : Nat} (A Bm C D G : Nat → Nat → Nat → α) (C' D' x : Nat → Nat → Nat → α) (z z' : Nat → Nat → α) {u u' : Option Int}
    (hM : 0 < M) (hN : 0 < N) (hu : ∀ i, u = some i → 1 ≤ i) (hu' : ∀ i, u' = some i → 1 ≤ i) (hd : d ≤ N)
    (h : ∀ b, b < B → (mat M M (A b) - mat M P (G b) * mat P M (C b)) ^ d = 0) :
    ∃ (y : Nat → Nat → Nat → α) (f w : Tensor α),
      Lti.stateSpace (t3 B M M A) (t3 B N F x) (some (t3 B M F Bm)) (some (t3 B P M C)) (some (t3 B P F D)) (some (t2 B M z)) u none =
        .ok (t3 B N P y, some f) ∧
      Lti.stateSpace (t3 B M M fun b m k => A b m k - ∑ p ∈ Finset.range P, G b m p * C b p k)
        (t3 B N (F + P) fun b t => beside F (x b t) (y b t))
        (some (t3 B M (F + P) fun b m => beside F (fun q => Bm b m q - ∑ p ∈ Finset.range P, G b m p * D b p q) (G b m)))
        (some (t3 B R M C')) (some (t3 B R (F + P) D')) (some (t2 B M z')) u' none = .ok (w, some f) := by
  obtain ⟨y, f, f', w, e, e', hf⟩ := C91_observer (B := B) (N := N) (P := P) (F := F) (R := R) A Bm C D G C' D' x z z' hM hN hu hu'
  refine ⟨y, _, w, e, e'.trans (ok_pair rfl (congrArg some (t2_congr rfl rfl fun b m hb hm => ?_)))⟩
  have := hf b
  rw [← Nat.sub_add_cancel hd, pow_add, h b hb, mul_zero, zero_mulVec, sub_eq_zero] at this
  exact (congrFun this ⟨m, hm⟩).symm

/-- `A` exchanges two states, the second is seen, `L = (1, 0)`: the square of `A - L C` is zero. -/
example := C91_deadbeat (B := 3) (N := 7) (M := 2) (P := 1) (F := 2) (R := 1) (d := 2) (u := none) (u' := some 2) (fun _ i j => if i = j then 0 else (1 : ℤ))
  (fun b i j => b - i * j) (fun _ _ j => j) (fun _ i j => i - j) (fun _ i _ => if i = 0 then 1 else 0) (fun _ i j => i + j) (fun _ _ _ => 0)
  (fun b t f => b + t * f) (fun b m => b - m) (fun _ _ => 0) (by decide) (by decide) (by simp) (by rintro i ⟨⟩; decide) (by decide)
  (fun _ _ => by ext i j; fin_cases i <;> fin_cases j <;> simp [mat, pow_two, Matrix.mul_apply])

end Props
