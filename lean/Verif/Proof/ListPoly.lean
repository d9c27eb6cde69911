import Verif.Spec.Poly
import Mathlib.Algebra.Polynomial.Coeff
import Mathlib.Algebra.Polynomial.Degree.Lemmas
import Mathlib.Algebra.Polynomial.Eval.Degree
import Mathlib.Algebra.Polynomial.Derivative
import Mathlib.Tactic.Ring

/-! # Polynomials given by coefficient lists -/

namespace Spec
open Finset Polynomial
variable {α : Type} [CommRing α]

@[simp] theorem listPoly_nil : listPoly ([] : List α) = 0 := rfl

theorem listPoly_cons (a : α) (l : List α) : listPoly (a :: l) = C a * X ^ l.length + listPoly l := by
  simp only [listPoly, descPoly, List.length_cons]
  rw [sum_range_succ', add_comm]
  congr 1
  refine sum_congr rfl fun i _ => ?_
  rw [List.getD_cons_succ]
  congr 2
  omega

theorem listPoly_singleton (a : α) : listPoly [a] = C a := by
  rw [listPoly_cons]; simp

theorem listPoly_append (l m : List α) : listPoly (l ++ m) = listPoly l * X ^ m.length + listPoly m := by
  induction l with
  | nil => simp
  | cons a l ih =>
    rw [List.cons_append, listPoly_cons, ih, listPoly_cons, List.length_append, pow_add]
    ring

theorem listPoly_concat (l : List α) (a : α) : listPoly (l ++ [a]) = listPoly l * X + C a := by
  rw [listPoly_append, listPoly_singleton]; simp

theorem listPoly_zeros (n : Nat) : listPoly (List.replicate n (0 : α)) = 0 := by
  induction n with
  | zero => rfl
  | succ n ih => rw [List.replicate_succ, listPoly_cons, ih]; simp

theorem listPoly_zeros_append (n : Nat) (l : List α) : listPoly (List.replicate n 0 ++ l) = listPoly l := by
  rw [listPoly_append, listPoly_zeros]; simp

theorem listPoly_zero_cons (l : List α) : listPoly (0 :: l) = listPoly l := by rw [listPoly_cons]; simp

theorem coeff_listPoly (l : List α) (k : Nat) : (listPoly l).coeff k = if k < l.length then l.getD (l.length - 1 - k) 0 else 0 := by
  induction l with
  | nil => simp
  | cons a l ih =>
    rw [listPoly_cons, coeff_add, coeff_C_mul_X_pow, ih]
    rw [List.length_cons]
    by_cases h : k < l.length
    · rw [if_neg (by omega), if_pos h, if_pos (by omega), zero_add,
        show l.length + 1 - 1 - k = (l.length - 1 - k) + 1 by omega, List.getD_cons_succ]
    · by_cases h' : k = l.length
      · subst h'
        rw [if_pos rfl, if_neg h, if_pos (by omega), add_zero, show l.length + 1 - 1 - l.length = 0 by omega]; rfl
      · rw [if_neg (by omega), if_neg h, if_neg (by omega), add_zero]

theorem listPoly_map_mul (c : α) (l : List α) : listPoly (l.map fun e => c * e) = C c * listPoly l := by
  induction l with
  | nil => simp
  | cons a l ih => rw [List.map_cons, listPoly_cons, ih, listPoly_cons, List.length_map, C_mul]; ring

theorem listPoly_zipWith_add (l m : List α) (h : l.length = m.length) :
    listPoly (l.zipWith (· + ·) m) = listPoly l + listPoly m := by
  induction l generalizing m with
  | nil => cases m <;> simp_all
  | cons a l ih =>
    cases m with
    | nil => simp at h
    | cons b m =>
      have h' : l.length = m.length := by simpa using h
      rw [List.zipWith_cons_cons, listPoly_cons, ih m h', listPoly_cons, listPoly_cons, List.length_zipWith, h', Nat.min_self, C_add]
      ring

theorem listPoly_zipWith_sub (l m : List α) (h : l.length = m.length) :
    listPoly (l.zipWith (· - ·) m) = listPoly l - listPoly m := by
  induction l generalizing m with
  | nil => cases m <;> simp_all
  | cons a l ih =>
    cases m with
    | nil => simp at h
    | cons b m =>
      have h' : l.length = m.length := by simpa using h
      rw [List.zipWith_cons_cons, listPoly_cons, ih m h', listPoly_cons, listPoly_cons, List.length_zipWith, h', Nat.min_self, C_sub]
      ring

theorem listPoly_degree (l : List α) : (listPoly l).degree < l.length := by
  rw [degree_lt_iff_coeff_zero]
  intro k hk
  rw [coeff_listPoly, if_neg (by omega)]

/-- Horner's rule. -/
theorem eval_listPoly (a : α) (l : List α) (x : α) :
    (listPoly (a :: l)).eval x = l.foldl (fun y c => y * x + c) a := by
  induction l using List.reverseRecOn with
  | nil => simp [listPoly_singleton]
  | append_singleton l c ih =>
    rw [← List.cons_append, listPoly_concat, eval_add, eval_mul, ih, eval_X, eval_C, List.foldl_append]; rfl

end Spec
