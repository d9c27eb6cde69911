import Verif.Proof.Transfer
import Verif.Proof.ListPoly
import Verif.Spec.Pfe
import Mathlib.Algebra.CharZero.Infinite
import Mathlib.Algebra.Polynomial.Roots
import Mathlib.Data.List.GetD
import Mathlib.RingTheory.PowerSeries.Basic

/-! # Sums of filters: tools

An identity between values of rational functions becomes an identity between the power series of the filters. -/

namespace Spec
open Finset Polynomial
variable {α : Type} [Field α]

/-- A sum of fractions with the values of `b/a`, cleared of its denominators. -/
theorem fractions_clear [CharZero α] {ι : Type} [DecidableEq ι] (s : Finset ι) {b a k : α[X]} (r q : ι → α[X]) (ha : a ≠ 0)
    (hq : ∀ i ∈ s, q i ≠ 0)
    (h : ∀ w, w ≠ 0 → a.eval w ≠ 0 → (∀ i ∈ s, (q i).eval w ≠ 0) →
      b.eval w / a.eval w = k.eval w + ∑ i ∈ s, (r i).eval w / (q i).eval w) :
    b * ∏ i ∈ s, q i = a * (k * ∏ i ∈ s, q i + ∑ i ∈ s, r i * ∏ j ∈ s.erase i, q j) := by
  have hD : X * (a * ∏ i ∈ s, q i) ≠ 0 := mul_ne_zero X_ne_zero (mul_ne_zero ha (prod_ne_zero_iff.2 hq))
  classical
  have : Infinite α := CharZero.infinite α
  refine eq_of_infinite_eval_eq _ _ (((X * (a * ∏ i ∈ s, q i)).roots.toFinset.finite_toSet.infinite_compl).mono ?_)
  intro w hw
  have hw : (X * (a * ∏ i ∈ s, q i)).eval w ≠ 0 := by
    intro h0
    exact hw (Multiset.mem_toFinset.2 ((mem_roots hD).2 h0))
  rw [eval_mul, eval_X, eval_mul, eval_prod] at hw
  have hw0 := left_ne_zero_of_mul hw
  replace hw := right_ne_zero_of_mul hw
  have ha' := left_ne_zero_of_mul hw
  have hq' : ∀ i ∈ s, (q i).eval w ≠ 0 := prod_ne_zero_iff.1 (right_ne_zero_of_mul hw)
  have e := h w hw0 ha' hq'
  rw [div_eq_iff ha'] at e
  show eval w _ = eval w _
  rw [eval_mul, eval_mul, eval_add, eval_mul, eval_prod, eval_finsetSum, e]
  have : ∀ i ∈ s, (r i * ∏ j ∈ s.erase i, q j).eval w = (r i).eval w / (q i).eval w * ∏ i ∈ s, (q i).eval w := by
    intro i hi
    rw [eval_mul, eval_prod, ← mul_prod_erase s _ hi]
    field_simp [hq' i hi]
  rw [sum_congr rfl this, ← sum_mul]
  ring

/-- The filters with these fractions, side by side, are the filter `b/a`. -/
theorem parallel_series [CharZero α] {ι : Type} [DecidableEq ι] (s : Finset ι) {b a k : α[X]} (r q : ι → α[X]) (ha : a.coeff 0 ≠ 0)
    (hq : ∀ i ∈ s, (q i).coeff 0 ≠ 0)
    (h : ∀ w, w ≠ 0 → a.eval w ≠ 0 → (∀ i ∈ s, (q i).eval w ≠ 0) →
      b.eval w / a.eval w = k.eval w + ∑ i ∈ s, (r i).eval w / (q i).eval w)
    {x y : PowerSeries α} {z : ι → PowerSeries α} (hy : (a : PowerSeries α) * y = (b : PowerSeries α) * x)
    (hz : ∀ i ∈ s, (q i : PowerSeries α) * z i = (r i : PowerSeries α) * x) :
    y = (k : PowerSeries α) * x + ∑ i ∈ s, z i := by
  have hu : ∀ f : α[X], f.coeff 0 ≠ 0 → IsUnit (f : PowerSeries α) := by
    intro f hf
    rw [PowerSeries.isUnit_iff_constantCoeff, ← PowerSeries.coeff_zero_eq_constantCoeff_apply, coeff_coe]
    exact hf.isUnit
  have hn : ∀ f : α[X], f.coeff 0 ≠ 0 → f ≠ 0 := by rintro f hf rfl; simp at hf
  have e := congrArg (fun f : α[X] => (f : PowerSeries α)) (fractions_clear s r q (hn _ ha) (fun i hi => hn _ (hq i hi)) h)
  have hp : ∀ (t : Finset ι), ((∏ i ∈ t, q i : α[X]) : PowerSeries α) = ∏ i ∈ t, (q i : PowerSeries α) :=
    fun t => map_prod (coeToPowerSeries.ringHom (R := α)) q t
  have hs : ((∑ i ∈ s, r i * ∏ j ∈ s.erase i, q j : α[X]) : PowerSeries α) =
      ∑ i ∈ s, (r i : PowerSeries α) * ∏ j ∈ s.erase i, (q j : PowerSeries α) := by
    refine (map_sum (coeToPowerSeries.ringHom (R := α)) _ s).trans (sum_congr rfl fun i _ => ?_)
    rw [coeToPowerSeries.ringHom_apply, Polynomial.coe_mul, hp]
  beta_reduce at e
  rw [Polynomial.coe_mul, Polynomial.coe_mul, Polynomial.coe_add, Polynomial.coe_mul, hp, hs] at e
  refine ((hu a ha).mul (IsUnit.prod_iff.2 fun i hi => hu _ (hq i hi))).mul_left_cancel ?_
  have h1 : ∀ i ∈ s, (∏ j ∈ s, (q j : PowerSeries α)) * z i = (r i : PowerSeries α) * (∏ j ∈ s.erase i, (q j : PowerSeries α)) * x := by
    intro i hi
    rw [← mul_prod_erase s _ hi]
    linear_combination (∏ j ∈ s.erase i, (q j : PowerSeries α)) * hz i hi
  have h2 : (∏ j ∈ s, (q j : PowerSeries α)) * ∑ i ∈ s, z i =
      (∑ i ∈ s, (r i : PowerSeries α) * ∏ j ∈ s.erase i, (q j : PowerSeries α)) * x := by
    rw [mul_sum, sum_mul, sum_congr rfl h1]
  linear_combination (∏ j ∈ s, (q j : PowerSeries α)) * hy + x * e - (a : PowerSeries α) * h2

/-- A numerator given by a list. -/
theorem mk_zext_list (b : List α) (c : α) :
    PowerSeries.mk (zext b.length fun j => b.getD j 0 / c) = ((C c⁻¹ * listPoly b.reverse : α[X]) : PowerSeries α) := by
  ext n
  rw [PowerSeries.coeff_mk, coeff_coe, coeff_C_mul, coeff_listPoly, List.length_reverse, zext]
  by_cases hn : n < b.length
  · rw [if_pos hn, if_pos hn, List.getD_eq_getElem _ _ hn, List.getD_eq_getElem _ _ (by rw [List.length_reverse]; omega), List.getElem_reverse,
      div_eq_inv_mul]
    congr 2
    omega
  · rw [if_neg hn, if_neg hn, mul_zero]

/-- A denominator given by a list, divided by its first entry. -/
theorem mk_denom_list {a : List α} (h0 : a.getD 0 0 ≠ 0) :
    PowerSeries.mk (denom (a.length - 1) fun j => a.getD (j + 1) 0 / a.getD 0 0) =
      ((C (a.getD 0 0)⁻¹ * listPoly a.reverse : α[X]) : PowerSeries α) := by
  rw [← mk_zext_list]
  congr 1
  funext n
  have hl : 0 < a.length := by
    rcases Nat.eq_zero_or_pos a.length with h | h
    · rw [List.eq_nil_of_length_eq_zero h] at h0; simp at h0
    · exact h
  unfold denom zext
  beta_reduce
  rcases Nat.eq_zero_or_pos n with rfl | hn
  · rw [if_pos rfl, if_pos hl, div_self h0]
  · rw [if_neg (by omega), show n - 1 + 1 = n by omega]
    exact if_congr (by omega) rfl rfl

/-- The denominator `(1 - p w)^m`. -/
theorem mk_denom_pole (p : α) (m : Nat) :
    PowerSeries.mk (denom m fun j => ((1 - C p * X : α[X]) ^ m).coeff (j + 1)) = (((1 - C p * X) ^ m : α[X]) : PowerSeries α) := by
  ext n
  rw [PowerSeries.coeff_mk, coeff_coe, denom]
  rcases Nat.eq_zero_or_pos n with rfl | hn
  · rw [if_pos rfl, coeff_zero_eq_eval_zero]; simp
  · rw [if_neg (by omega), show n - 1 + 1 = n by omega]
    split_ifs with h
    · rfl
    · refine (coeff_eq_zero_of_natDegree_lt ?_).symm
      have h1 : (1 - C p * X : α[X]).natDegree ≤ 1 := by compute_degree
      have h2 := natDegree_pow_le_of_le m h1
      omega

/-- The numerator `r w^n`. -/
theorem mk_zext_delay (r : α) (n : Nat) :
    PowerSeries.mk (zext (n + 1) fun j => if j = n then r else 0) = ((C r * X ^ n : α[X]) : PowerSeries α) := by
  ext k
  rw [PowerSeries.coeff_mk, coeff_coe, coeff_C_mul_X_pow, zext]
  by_cases h : k = n
  · rw [if_pos (by omega), if_pos h]
  · rw [if_neg h, ite_self]

end Spec
