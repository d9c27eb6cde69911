import Verif.Spec.Recur
import Mathlib.Algebra.BigOperators.Ring.Finset

/-! # Facts about the scalar recurrence -/

namespace Spec
open Finset
variable {α : Type} [CommRing α]

theorem scalarRec_congr {a a' : Nat → α} {h h' : α} {x x' : Nat → α} {t : Nat} (hh : h = h')
    (ha : ∀ j, j < t → a j = a' j) (hx : ∀ j, j < t → x j = x' j) :
    scalarRec a h x t = scalarRec a' h' x' t := by
  induction t with
  | zero => exact hh
  | succ t ih =>
    simp only [scalarRec]
    rw [ih (fun j hj => ha j (by omega)) (fun j hj => hx j (by omega)), ha t (by omega), hx t (by omega)]

theorem scalarRec_add (a : Nat → α) (h : α) (x : Nat → α) (s n : Nat) :
    scalarRec a h x (s + n) =
      scalarRec (fun j => a (s + j)) (scalarRec a h x s) (fun j => x (s + j)) n := by
  induction n with
  | zero => rfl
  | succ n ih => rw [← Nat.add_assoc]; simp only [scalarRec]; rw [ih]

/-- Closed form of the recurrence with a constant coefficient. -/
theorem scalarRec_const (a h : α) (x : Nat → α) (n : Nat) :
    scalarRec (fun _ => a) h x n = a ^ n * h + ∑ j ∈ range n, a ^ (n - 1 - j) * x j := by
  induction n with
  | zero => simp [scalarRec]
  | succ n ih =>
    simp only [scalarRec]
    rw [ih, sum_range_succ, mul_add, mul_sum]
    have : ∑ j ∈ range n, a * (a ^ (n - 1 - j) * x j) = ∑ j ∈ range n, a ^ (n + 1 - 1 - j) * x j := by
      refine sum_congr rfl fun j hj => ?_
      rw [mem_range] at hj
      rw [show n + 1 - 1 - j = (n - 1 - j) + 1 by omega, pow_succ]; ring
    rw [this]
    simp only [Nat.add_sub_cancel, Nat.sub_self, pow_zero, pow_succ]
    ring

/-- Closed form with the products written out. -/
theorem scalarRec_var (a : Nat → α) (h : α) (x : Nat → α) (n : Nat) :
    scalarRec a h x n =
      (∏ j ∈ range n, a j) * h + ∑ j ∈ range n, (∏ i ∈ Ico (j + 1) n, a i) * x j := by
  induction n with
  | zero => simp [scalarRec]
  | succ n ih =>
    simp only [scalarRec]
    rw [ih, sum_range_succ, prod_range_succ, mul_add, mul_sum]
    have : ∑ j ∈ range n, a n * ((∏ i ∈ Ico (j + 1) n, a i) * x j) =
        ∑ j ∈ range n, (∏ i ∈ Ico (j + 1) (n + 1), a i) * x j := by
      refine sum_congr rfl fun j hj => ?_
      rw [mem_range] at hj
      rw [prod_Ico_succ_top (by omega)]; ring
    rw [this]
    simp only [Ico_self, prod_empty]
    ring

end Spec
