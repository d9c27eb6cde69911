import Verif.Proof.Mat
import Mathlib.Algebra.Star.Rat

/-!
# C03: `matrix_power_accumulate`

`t2 M M (fm A)` is the tensor that holds the matrix `A`; `t3 n M M fun k => fm (X k)` holds the stack `X 0, …, X (n-1)`.
-/

namespace Props
open Torch Torch.Tensor Phil.Mat

/-- What the factorisation routine is assumed to return for `n ≥ 2`: positive factors whose product is `n`. -/
def FactorsOf (fs : List Nat) (n : Nat) : Prop := fs ≠ [] ∧ (∀ f ∈ fs, 0 < f) ∧ fs.prod = n

/-- The sorted list of prime factors (sympy's `factorint(n, multiple=True)`) is such a list. -/
theorem factorsOf_factorint (n : Nat) (hn : 2 ≤ n) : FactorsOf (factorint n) n := by
  rw [factorint_eq]
  exact ⟨by rw [Ne, Nat.primeFactorsList_eq_nil]; omega, fun _ hf => Nat.pos_of_mem_primeFactorsList hf,
    Nat.prod_primeFactorsList (by omega)⟩

section
variable {α : Type} [Field α]

/-- **C03**, `n ≥ 1`: the result is `[A, A², …, Aⁿ]`, for every matrix and every factorisation of `n`. -/
theorem C03_powers {M : Nat} (factorint : Nat → List Nat) (A : Matrix (Fin M) (Fin M) α) (n : Nat) (hn : 1 ≤ n)
    (hf : 2 ≤ n → FactorsOf (factorint n) n) :
    matrixPowerAccumulate factorint (t2 M M (fm A)) n = .ok (t3 n M M fun k => fm (A ^ (k + 1))) := by
  unfold matrixPowerAccumulate
  refine check_step (by simp) (check_step (by simp) ?_)
  rw [if_neg (by omega), Int.toNat_natCast]
  by_cases h1 : n = 1
  · subst h1
    unfold matrixPowerAccumulateNat
    refine check_step (by simp) (check_step (by simp) ?_)
    rw [if_neg (by omega), if_pos rfl, unsqueeze_t2_n3]
    exact congrArg Except.ok (t3_congr rfl rfl rfl fun k i j hk _ _ => by
      obtain rfl : k = 0 := by omega
      simp)
  · obtain ⟨h1, h2, h3⟩ := hf (by omega)
    exact powerNat_t2 factorint A n hn h1 h2 h3

/-- **C03**, `n ≥ 1`, with a batch axis. -/
theorem C03_powers_batched {B M : Nat} (factorint : Nat → List Nat) (A : Nat → Matrix (Fin M) (Fin M) α) (n : Nat)
    (hn : 1 ≤ n) (hf : 2 ≤ n → FactorsOf (factorint n) n) :
    matrixPowerAccumulate factorint (t3 B M M fun b => fm (A b)) n =
      .ok (t4 B n M M fun b k => fm (A b ^ (k + 1))) := by
  unfold matrixPowerAccumulate
  refine check_step (by simp) (check_step (by simp) ?_)
  rw [if_neg (by omega), Int.toNat_natCast]
  by_cases h1 : n = 1
  · subst h1
    unfold matrixPowerAccumulateNat
    refine check_step (by simp) (check_step (by simp) ?_)
    rw [if_neg (by omega), if_pos rfl, unsqueeze_t3_n3]
    exact congrArg Except.ok (t4_congr rfl rfl rfl rfl fun b k i j _ hk _ _ => by
      obtain rfl : k = 0 := by omega
      simp)
  · obtain ⟨h1, h2, h3⟩ := hf (by omega)
    exact powerNat_t3 factorint A n hn h1 h2 h3

example := C03_powers_batched (B := 3) (M := 2) factorint (fun b => !![(b : ℚ), 1; 1, 0]) 12 (by decide)
  fun _ => factorsOf_factorint 12 (by decide)

/-- **C03**, `n = 0`: the identity with a singleton axis. -/
theorem C03_zero {M : Nat} (factorint : Nat → List Nat) (A : Matrix (Fin M) (Fin M) α) :
    matrixPowerAccumulate factorint (t2 M M (fm A)) 0 = .ok (t3 1 M M fun _ => fm (1 : Matrix (Fin M) (Fin M) α)) := by
  unfold matrixPowerAccumulate
  refine check_step (by simp) (check_step (by simp) ?_)
  rw [if_neg (by omega)]
  exact powerNat_t2_zero factorint A

theorem C03_zero_batched {B M : Nat} (factorint : Nat → List Nat) (A : Nat → Matrix (Fin M) (Fin M) α) :
    matrixPowerAccumulate factorint (t3 B M M fun b => fm (A b)) 0 =
      .ok (t4 B 1 M M fun _ _ => fm (1 : Matrix (Fin M) (Fin M) α)) := by
  unfold matrixPowerAccumulate
  refine check_step (by simp) (check_step (by simp) ?_)
  rw [if_neg (by omega)]
  exact powerNat_t3_zero factorint A

/-- **C03**, `n < 0`: `[A⁻¹, …, A⁻ᵐ]` with `m = |n|`, for invertible `A`. -/
theorem C03_negative {M : Nat} (factorint : Nat → List Nat) (A : Matrix (Fin M) (Fin M) α) (m : Nat) (hm : 1 ≤ m)
    (hA : A.det ≠ 0) (hf : 2 ≤ m → FactorsOf (factorint m) m) :
    matrixPowerAccumulate factorint (t2 M M (fm A)) (-(m : Int)) =
      .ok (t3 m M M fun k => fm (A⁻¹ ^ (k + 1))) := by
  have h := C03_powers factorint A⁻¹ m hm hf
  unfold matrixPowerAccumulate at h ⊢
  refine check_step (by simp) (check_step (by simp) ?_)
  rw [if_pos (by omega)]
  refine bind_step (linalgInv_t2 A hA) ?_
  rw [neg_neg, Int.toNat_natCast]
  rw [check_true (by simp), ok_bind, check_true (by simp), ok_bind, if_neg (by omega), Int.toNat_natCast] at h
  exact h

theorem C03_negative_batched {B M : Nat} (factorint : Nat → List Nat) (A : Nat → Matrix (Fin M) (Fin M) α) (m : Nat)
    (hm : 1 ≤ m) (hA : ∀ b, b < B → (A b).det ≠ 0) (hf : 2 ≤ m → FactorsOf (factorint m) m) :
    matrixPowerAccumulate factorint (t3 B M M fun b => fm (A b)) (-(m : Int)) =
      .ok (t4 B m M M fun b k => fm ((A b)⁻¹ ^ (k + 1))) := by
  have h := C03_powers_batched (B := B) factorint (fun b => (A b)⁻¹) m hm hf
  unfold matrixPowerAccumulate at h ⊢
  refine check_step (by simp) (check_step (by simp) ?_)
  rw [if_pos (by omega)]
  refine bind_step (linalgInv_t3 A hA) ?_
  rw [neg_neg, Int.toNat_natCast]
  rw [check_true (by simp), ok_bind, check_true (by simp), ok_bind, if_neg (by omega), Int.toNat_natCast] at h
  exact h

example := C03_negative_batched (B := 3) (M := 2) factorint (fun b => !![(b : ℚ), 1; 1, 0]) 12 (by decide)
  (fun b _ => by simp [Matrix.det_fin_two]) fun _ => factorsOf_factorint 12 (by decide)

/-- A negative exponent of a singular matrix raises. -/
theorem C03_negative_singular {M : Nat} (factorint : Nat → List Nat) (A : Matrix (Fin M) (Fin M) α) (n : Int)
    (hn : n < 0) (hA : A.det = 0) : Fails (matrixPowerAccumulate factorint (t2 M M (fm A)) n) := by
  unfold matrixPowerAccumulate
  refine fails_check fun _ => fails_check fun _ => ?_
  rw [if_pos hn]
  exact fails_left (linalgInv_t2_singular A hA)

example := C03_negative_singular (M := 2) factorint !![(1 : ℚ), 1; 1, 1] (-3) (by decide) (by simp [Matrix.det_fin_two])

/-- The powers in `C03_negative` are inverse to the powers of `A`. -/
theorem C03_negative_inverse {M : Nat} (A : Matrix (Fin M) (Fin M) α) (hA : A.det ≠ 0) (k : Nat) :
    A ^ (k + 1) * A⁻¹ ^ (k + 1) = 1 := by
  rw [← (Commute.mul_pow _ _), Matrix.mul_nonsing_inv _ (isUnit_iff_ne_zero.mpr hA), one_pow]
  unfold Commute SemiconjBy
  rw [Matrix.mul_nonsing_inv _ (isUnit_iff_ne_zero.mpr hA), Matrix.nonsing_inv_mul _ (isUnit_iff_ne_zero.mpr hA)]

example := C03_negative_inverse (M := 2) !![(3 : ℚ), 1; 1, 0] (by simp [Matrix.det_fin_two]) 5

/-- The choice of factorisation is irrelevant. -/
theorem C03_factorisation_irrelevant {M : Nat} (factorint factorint' : Nat → List Nat) (A : Matrix (Fin M) (Fin M) α)
    (n : Nat) (hn : 1 ≤ n) (hf : FactorsOf (factorint n) n) (hf' : FactorsOf (factorint' n) n) :
    matrixPowerAccumulate factorint (t2 M M (fm A)) n = matrixPowerAccumulate factorint' (t2 M M (fm A)) n := by
  rw [C03_powers factorint A n hn fun _ => hf, C03_powers factorint' A n hn fun _ => hf']

/-- `12 = 2·2·3` or `12` alone. -/
example := C03_factorisation_irrelevant (M := 2) factorint (fun n => [n]) !![(3 : ℚ), 1; 1, 0] 12 (by decide)
  (factorsOf_factorint 12 (by decide)) ⟨by simp, by simp, by simp⟩

/-- Non-square matrices are rejected. -/
theorem C03_rejects_non_square (factorint : Nat → List Nat) (A : Tensor α) (n : Int)
    (h : A.rank < 2 ∨ A.size (-2) ≠ A.size (-1)) : Fails (matrixPowerAccumulate factorint A n) := by
  unfold matrixPowerAccumulate
  refine fails_check fun h1 => fails_check fun h2 => ?_
  exfalso
  rcases h with h | h
  · omega
  · exact h h2

end

example := C03_rejects_non_square factorint (t2 2 3 fun i j => (i : ℚ) + j) 4 (by simp)

/-- Non-vacuity: the twelve first powers of a 2×2 matrix, with `12 = 2·2·3`. -/
example : matrixPowerAccumulate factorint (t2 2 2 (fm !![(1 : ℚ), 1; 1, 0])) (12 : Nat) =
    .ok (t3 12 2 2 fun k => fm (!![(1 : ℚ), 1; 1, 0] ^ (k + 1))) :=
  C03_powers _ _ 12 (by omega) (factorsOf_factorint 12)

example : matrixPowerAccumulate factorint (t2 2 2 (fm !![(1 : ℚ), 1; 1, 0])) (-((6 : Nat) : Int)) =
    .ok (t3 6 2 2 fun k => fm ((!![(1 : ℚ), 1; 1, 0])⁻¹ ^ (k + 1))) :=
  C03_negative _ _ 6 (by omega) (by simp [Matrix.det_fin_two]) (factorsOf_factorint 6)

end Props
