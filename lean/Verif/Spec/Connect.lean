import Verif.Spec.Intertwine
import Mathlib.Algebra.BigOperators.Intervals

/-! # Spec: two systems in series and side by side -/

namespace Spec
open Finset
variable {α : Type} [CommRing α]

/-- `M` values of `u`, then those of `v`. -/
def joined (M : Nat) (u v : Nat → α) (i : Nat) : α := if i < M then u i else v (i - M)

/-- The product of two matrices with `Q` columns and rows. -/
def matProd (Q : Nat) (X Y : Nat → Nat → α) (i j : Nat) : α := ∑ q ∈ range Q, X i q * Y q j

/-- The matrix with blocks `[[A₁, 0], [X, A₂]]`, where `A₁` has `M` rows and columns. -/
def lowerBlocks (M : Nat) (A₁ X A₂ : Nat → Nat → α) (i : Nat) : Nat → α :=
  if i < M then joined M (A₁ i) (fun _ => 0) else joined M (X (i - M)) (A₂ (i - M))

/-- The matrix with blocks `[[U], [V]]`, where `U` has `M` rows. -/
def above (M : Nat) (U V : Nat → Nat → α) (i : Nat) : Nat → α := if i < M then U i else V (i - M)

/-- The matrix with blocks `[U, V]`, where `U` has `M` columns. -/
def beside (M : Nat) (U V : Nat → Nat → α) (p : Nat) : Nat → α := joined M (U p) (V p)

omit [CommRing α] in
theorem joined_lt {M : Nat} {u v : Nat → α} {i : Nat} (h : i < M) : joined M u v i = u i := if_pos h

omit [CommRing α] in
theorem joined_add {M : Nat} {u v : Nat → α} (i : Nat) : joined M u v (M + i) = v i := by
  rw [joined, if_neg (by omega), Nat.add_sub_cancel_left]

/-- A row of two blocks times a column of two blocks. -/
theorem sum_joined (M M₂ : Nat) (c d u v : Nat → α) :
    ∑ k ∈ range (M + M₂), joined M c d k * joined M u v k = ∑ k ∈ range M, c k * u k + ∑ k ∈ range M₂, d k * v k := by
  rw [sum_range_add]
  refine congrArg₂ (· + ·) (sum_congr rfl fun k hk => ?_) (sum_congr rfl fun k _ => by rw [joined_add, joined_add])
  rw [joined_lt (mem_range.1 hk), joined_lt (mem_range.1 hk)]

/-- `(X Y) s = X (Y s)`. -/
theorem sum_matProd (Q M : Nat) (X Y : Nat → Nat → α) (s : Nat → α) (i : Nat) :
    ∑ k ∈ range M, matProd Q X Y i k * s k = ∑ q ∈ range Q, X i q * ∑ k ∈ range M, Y q k * s k := by
  simp only [matProd, sum_mul, mul_sum]
  rw [sum_comm]
  exact sum_congr rfl fun _ _ => sum_congr rfl fun _ _ => by ring

/-- One step of the states of two systems in series. -/
theorem series_step {M₁ M₂ F Q : Nat} (A₁ B₁ C₁ D₁ A₂ B₂ : Nat → Nat → α) (s₁ s₂ x : Nat → α) (i : Nat) :
    ∑ k ∈ range (M₁ + M₂), lowerBlocks M₁ A₁ (matProd Q B₂ C₁) A₂ i k * joined M₁ s₁ s₂ k +
        ∑ f ∈ range F, above M₁ B₁ (matProd Q B₂ D₁) i f * x f =
      joined M₁ (fun i => ∑ k ∈ range M₁, A₁ i k * s₁ k + ∑ f ∈ range F, B₁ i f * x f)
        (fun i => ∑ k ∈ range M₂, A₂ i k * s₂ k +
          ∑ q ∈ range Q, B₂ i q * (∑ k ∈ range M₁, C₁ q k * s₁ k + ∑ f ∈ range F, D₁ q f * x f)) i := by
  by_cases h : i < M₁
  · simp only [lowerBlocks, above, if_pos h, joined_lt h]
    rw [sum_joined]; simp
  · rw [joined, if_neg h]
    simp only [lowerBlocks, above, if_neg h]
    rw [sum_joined, sum_matProd, sum_matProd]
    simp only [mul_add, sum_add_distrib]
    ring

/-- One step of the states of two systems side by side. -/
theorem parallel_step {M₁ M₂ F : Nat} (A₁ B₁ A₂ B₂ : Nat → Nat → α) (s₁ s₂ x : Nat → α) (i : Nat) :
    ∑ k ∈ range (M₁ + M₂), lowerBlocks M₁ A₁ (fun _ _ => 0) A₂ i k * joined M₁ s₁ s₂ k + ∑ f ∈ range F, above M₁ B₁ B₂ i f * x f =
      joined M₁ (fun i => ∑ k ∈ range M₁, A₁ i k * s₁ k + ∑ f ∈ range F, B₁ i f * x f)
        (fun i => ∑ k ∈ range M₂, A₂ i k * s₂ k + ∑ f ∈ range F, B₂ i f * x f) i := by
  by_cases h : i < M₁
  · simp only [lowerBlocks, above, if_pos h, joined_lt h]
    rw [sum_joined]; simp
  · rw [joined, if_neg h]
    simp only [lowerBlocks, above, if_neg h]
    rw [sum_joined]; simp

end Spec
