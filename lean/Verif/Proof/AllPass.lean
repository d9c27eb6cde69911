import Verif.Spec.AllPass
import Verif.Proof.Frequency

/-! # All-pass filters -/

namespace Spec
open Polynomial Finset

/-- The numerator of an all-pass filter is the product of `1/z - conj p` over the poles. -/
theorem allPass_poles {P : Nat} {b a : Nat → ℂ} (h : AllPass P b a) :
    PowerSeries.mk (zext (P + 1) b) =
      ((poles P a).map fun p => PowerSeries.X - PowerSeries.C ((starRingEnd ℂ) p)).prod := by
  have e := (IsAlgClosed.splits (denPoly P a)).eq_prod_roots_of_monic (denPoly_natDegree P a).2
  have e2 : ((denPoly P a).map (starRingEnd ℂ)) = ((poles P a).map fun p => X - C ((starRingEnd ℂ) p)).prod := by
    conv_lhs => rw [e]
    rw [Polynomial.map_multiset_prod, Multiset.map_map]
    refine congrArg _ (Multiset.map_congr rfl fun p _ => ?_)
    simp
  have e3 := congrArg (fun q : ℂ[X] => (q : PowerSeries ℂ)) e2
  have e4 : ((((poles P a).map fun p => X - C ((starRingEnd ℂ) p)).prod : ℂ[X]) : PowerSeries ℂ) =
      ((poles P a).map fun p => PowerSeries.X - PowerSeries.C ((starRingEnd ℂ) p)).prod := by
    have := map_multiset_prod (coeToPowerSeries.ringHom (R := ℂ)) ((poles P a).map fun p => X - C ((starRingEnd ℂ) p))
    rw [coeToPowerSeries.ringHom_apply, Multiset.map_map] at this
    refine this.trans (congrArg _ (Multiset.map_congr rfl fun p _ => ?_))
    simp [coeToPowerSeries.ringHom_apply]
  rw [← e4, ← e3]
  ext n
  rw [PowerSeries.coeff_mk, coeff_coe, coeff_map, zext]
  split
  · next hn =>
    rw [h n (by omega), ← denPoly_coeff P a (show P - n ≤ P by omega), show P - (P - n) = n by omega]
  · next hn =>
    rw [coeff_eq_zero_of_natDegree_lt (by rw [(denPoly_natDegree P a).1]; omega), map_zero]

theorem energy_step (p v v' : ℂ) :
    ‖v - p * v'‖ ^ 2 - ‖v' - (starRingEnd ℂ) p * v‖ ^ 2 = (1 - ‖p‖ ^ 2) * (‖v‖ ^ 2 - ‖v'‖ ^ 2) := by
  simp only [← Complex.normSq_eq_norm_sq, Complex.normSq_apply, Complex.sub_re, Complex.sub_im, Complex.mul_re, Complex.mul_im,
    Complex.conj_re, Complex.conj_im]
  ring

/-- One first-order section: the energy it has taken in and not given back is `(1 - |p|²) |v|²`. -/
theorem section_energy {p : ℂ} {u y : PowerSeries ℂ}
    (h : (1 - PowerSeries.C p * PowerSeries.X) * y = (PowerSeries.X - PowerSeries.C ((starRingEnd ℂ) p)) * u) :
    ∃ v : Nat → ℂ, v 0 = 0 ∧ (∀ n, v (n + 1) = p * v n + PowerSeries.coeff n u) ∧
      (∀ n, PowerSeries.coeff n y = v n - (starRingEnd ℂ) p * v (n + 1)) ∧
      ∀ n, energy (fun t => PowerSeries.coeff t u) n - energy (fun t => PowerSeries.coeff t y) n = (1 - ‖p‖ ^ 2) * ‖v n‖ ^ 2 := by
  have hU : IsUnit (1 - PowerSeries.C p * PowerSeries.X : PowerSeries ℂ) := by
    rw [PowerSeries.isUnit_iff_constantCoeff]; simp
  obtain ⟨f, hf⟩ := hU.exists_right_inv
  have h1 : (1 - PowerSeries.C p * PowerSeries.X) * (f * u) = u := by rw [← mul_assoc, hf, one_mul]
  have h2 : y = (PowerSeries.X - PowerSeries.C ((starRingEnd ℂ) p)) * (f * u) := by
    refine hU.mul_left_cancel ?_
    rw [h, mul_left_comm, h1]
  generalize f * u = V at h1 h2
  have hs : ∀ n, PowerSeries.coeff (n + 1) (PowerSeries.X * V) = PowerSeries.coeff n V := fun n => PowerSeries.coeff_succ_X_mul n V
  have e1 : ∀ n, PowerSeries.coeff (n + 1) (PowerSeries.X * V) = p * PowerSeries.coeff n (PowerSeries.X * V) + PowerSeries.coeff n u := by
    intro n
    rw [hs]
    conv_rhs => rw [← h1]
    rw [sub_mul, one_mul, map_sub, mul_assoc, PowerSeries.coeff_C_mul]
    ring
  have e2 : ∀ n, PowerSeries.coeff n y = PowerSeries.coeff n (PowerSeries.X * V) -
      (starRingEnd ℂ) p * PowerSeries.coeff (n + 1) (PowerSeries.X * V) := by
    intro n
    rw [hs, h2, sub_mul, map_sub, PowerSeries.coeff_C_mul]
  refine ⟨fun n => PowerSeries.coeff n (PowerSeries.X * V), PowerSeries.coeff_zero_X_mul V, e1, e2, fun n => ?_⟩
  induction n with
  | zero => simp [energy]
  | succ n ih =>
    have k := energy_step p (PowerSeries.coeff (n + 1) (PowerSeries.X * V)) (PowerSeries.coeff n (PowerSeries.X * V))
    rw [← e2, e1 n, add_sub_cancel_left, ← e1 n] at k
    unfold energy at ih ⊢
    rw [sum_range_succ, sum_range_succ]
    linear_combination ih + k

/-- A cascade of sections gives back at most the energy it takes in. -/
theorem allPass_energy {s : Multiset ℂ} (hs : ∀ p ∈ s, ‖p‖ ≤ 1) {u y : PowerSeries ℂ}
    (h : (s.map fun p => 1 - PowerSeries.C p * PowerSeries.X).prod * y =
      (s.map fun p => PowerSeries.X - PowerSeries.C ((starRingEnd ℂ) p)).prod * u) (n : Nat) :
    energy (fun t => PowerSeries.coeff t y) n ≤ energy (fun t => PowerSeries.coeff t u) n := by
  induction s using Multiset.induction_on generalizing u with
  | empty => simp only [Multiset.map_zero, Multiset.prod_zero, one_mul] at h; rw [h]
  | cons p s ih =>
    simp only [Multiset.map_cons, Multiset.prod_cons] at h
    have hU : IsUnit (1 - PowerSeries.C p * PowerSeries.X : PowerSeries ℂ) := by
      rw [PowerSeries.isUnit_iff_constantCoeff]; simp
    obtain ⟨f, hf⟩ := hU.exists_right_inv
    have h1 : (1 - PowerSeries.C p * PowerSeries.X) * (f * ((PowerSeries.X - PowerSeries.C ((starRingEnd ℂ) p)) * u)) =
        (PowerSeries.X - PowerSeries.C ((starRingEnd ℂ) p)) * u := by rw [← mul_assoc, hf, one_mul]
    generalize f * ((PowerSeries.X - PowerSeries.C ((starRingEnd ℂ) p)) * u) = g at h1
    have h2 : (s.map fun p => 1 - PowerSeries.C p * PowerSeries.X).prod * y =
        (s.map fun p => PowerSeries.X - PowerSeries.C ((starRingEnd ℂ) p)).prod * g := by
      refine hU.mul_left_cancel ?_
      rw [← mul_assoc, h, mul_left_comm, h1]
      ring
    refine (ih (fun q hq => hs q (Multiset.mem_cons_of_mem hq)) h2).trans ?_
    obtain ⟨v, -, -, -, e⟩ := section_energy h1
    have k := e n
    have hp := hs p (Multiset.mem_cons_self p s)
    have : 0 ≤ (1 - ‖p‖ ^ 2) * ‖v n‖ ^ 2 := mul_nonneg (by nlinarith [norm_nonneg p]) (by positivity)
    linarith

/-- A stable first-order recursion driven by a vanishing signal vanishes. -/
theorem first_order_tendsto {p : ℂ} (hp : ‖p‖ < 1) {u v : Nat → ℂ} (h : ∀ n, v (n + 1) = p * v n + u n)
    (hu : Filter.Tendsto u Filter.atTop (nhds 0)) : Filter.Tendsto v Filter.atTop (nhds 0) := by
  rw [Metric.tendsto_atTop] at hu ⊢
  intro ε hε
  obtain ⟨T, hT⟩ := hu (ε / 2 * (1 - ‖p‖)) (mul_pos (by linarith) (by linarith))
  have k : ∀ m, ‖v (T + m)‖ ≤ ‖p‖ ^ m * ‖v T‖ + ε / 2 := by
    intro m
    induction m with
    | zero => rw [pow_zero, one_mul, add_zero]; linarith
    | succ m ih =>
      rw [← add_assoc, h]
      have h1 := hT (T + m) (by omega)
      rw [dist_zero_right] at h1
      refine (norm_add_le _ _).trans ?_
      rw [norm_mul]
      have h2 := mul_le_mul_of_nonneg_left ih (norm_nonneg p)
      calc _ ≤ ‖p‖ * (‖p‖ ^ m * ‖v T‖ + ε / 2) + ε / 2 * (1 - ‖p‖) := add_le_add h2 h1.le
        _ = _ := by rw [pow_succ]; ring
  have h0 := ((tendsto_pow_atTop_nhds_zero_of_lt_one (norm_nonneg p) hp).mul_const ‖v T‖)
  rw [zero_mul] at h0
  obtain ⟨M, hM⟩ := Metric.tendsto_atTop.1 h0 (ε / 2) (by linarith)
  refine ⟨T + M, fun n hn => ?_⟩
  have h1 := hM (n - T) (by omega)
  have h2 := k (n - T)
  rw [show T + (n - T) = n by omega] at h2
  rw [Real.dist_0_eq_abs] at h1
  rw [dist_zero_right]
  linarith [(abs_lt.1 h1).2]

/-- A stable cascade gives back all the energy of a vanishing signal. -/
theorem allPass_conserves {s : Multiset ℂ} (hs : ∀ p ∈ s, ‖p‖ < 1) {u y : PowerSeries ℂ}
    (h : (s.map fun p => 1 - PowerSeries.C p * PowerSeries.X).prod * y =
      (s.map fun p => PowerSeries.X - PowerSeries.C ((starRingEnd ℂ) p)).prod * u)
    (hu : Filter.Tendsto (fun t => PowerSeries.coeff t u) Filter.atTop (nhds 0)) :
    Filter.Tendsto (fun n => energy (fun t => PowerSeries.coeff t u) n - energy (fun t => PowerSeries.coeff t y) n)
      Filter.atTop (nhds 0) := by
  induction s using Multiset.induction_on generalizing u with
  | empty =>
    simp only [Multiset.map_zero, Multiset.prod_zero, one_mul] at h
    simp only [h, sub_self]
    exact tendsto_const_nhds
  | cons p s ih =>
    simp only [Multiset.map_cons, Multiset.prod_cons] at h
    have hU : IsUnit (1 - PowerSeries.C p * PowerSeries.X : PowerSeries ℂ) := by
      rw [PowerSeries.isUnit_iff_constantCoeff]; simp
    obtain ⟨f, hf⟩ := hU.exists_right_inv
    have h1 : (1 - PowerSeries.C p * PowerSeries.X) * (f * ((PowerSeries.X - PowerSeries.C ((starRingEnd ℂ) p)) * u)) =
        (PowerSeries.X - PowerSeries.C ((starRingEnd ℂ) p)) * u := by rw [← mul_assoc, hf, one_mul]
    generalize f * ((PowerSeries.X - PowerSeries.C ((starRingEnd ℂ) p)) * u) = g at h1
    have h2 : (s.map fun p => 1 - PowerSeries.C p * PowerSeries.X).prod * y =
        (s.map fun p => PowerSeries.X - PowerSeries.C ((starRingEnd ℂ) p)).prod * g := by
      refine hU.mul_left_cancel ?_
      rw [← mul_assoc, h, mul_left_comm, h1]
      ring
    obtain ⟨v, -, hv, hg, e⟩ := section_energy h1
    have hv0 := first_order_tendsto (hs p (Multiset.mem_cons_self p s)) hv hu
    have hg0 : Filter.Tendsto (fun t => PowerSeries.coeff t g) Filter.atTop (nhds 0) := by
      simp only [hg]
      simpa using hv0.sub ((hv0.comp (Filter.tendsto_add_atTop_nat 1)).const_mul ((starRingEnd ℂ) p))
    have k := ih (fun q hq => hs q (Multiset.mem_cons_of_mem hq)) h2 hg0
    have k2 : Filter.Tendsto (fun n => (1 - ‖p‖ ^ 2) * ‖v n‖ ^ 2) Filter.atTop (nhds 0) := by
      simpa using (hv0.norm.pow 2).const_mul (1 - ‖p‖ ^ 2)
    have k3 := k2.add k
    simp only [← e, add_zero] at k3
    refine k3.congr fun n => by ring

theorem energy_ofReal (x : Nat → ℝ) (n : Nat) : energy (fun t => (x t : ℂ)) n = ∑ t ∈ range n, x t ^ 2 :=
  sum_congr rfl fun t _ => by rw [Complex.norm_real, Real.norm_eq_abs, sq_abs]

theorem allPass_ofReal {P : Nat} {b a : Nat → ℝ} (h : ∀ j, j ≤ P → b j = denom P a (P - j)) :
    AllPass P (fun j => (b j : ℂ)) fun k => (a k : ℂ) := by
  intro j hj
  beta_reduce
  rw [h j hj]
  unfold denom
  split_ifs <;> simp

/-- The response of an all-pass filter on the unit circle has modulus 1. -/
theorem allPass_gain {P : Nat} {b a : Nat → ℂ} (h : AllPass P b a) {w : ℂ} (hw : ‖w‖ = 1) (h0 : denAt P a w ≠ 0) :
    ‖transferAt (P + 1) P b a w‖ = 1 := by
  have hw0 : w ≠ 0 := by rintro rfl; norm_num at hw
  have hc : (starRingEnd ℂ) w⁻¹ = w := by
    rw [map_inv₀, Complex.inv_def, Complex.normSq_eq_norm_sq, Complex.norm_conj, hw]
    simp
  have hden : denAt P a w = ∑ k ∈ range (P + 1), denom P a k * w⁻¹ ^ k := by
    rw [sum_range_succ', denAt, add_comm]
    refine congrArg₂ (· + ·) (sum_congr rfl fun k hk => ?_) ?_
    · rw [denom, if_neg (by omega), Nat.add_sub_cancel, if_pos (mem_range.1 hk)]
    · rw [denom, if_pos rfl, pow_zero, mul_one]
  have hnum : ∑ j ∈ range (P + 1), b j * w⁻¹ ^ j = w⁻¹ ^ P * (starRingEnd ℂ) (denAt P a w) := by
    rw [hden, map_sum, mul_sum, ← sum_range_reflect]
    refine sum_congr rfl fun j hj => ?_
    have := mem_range.1 hj
    rw [show P + 1 - 1 - j = P - j by omega, h _ (by omega), map_mul, map_pow, hc, show P - (P - j) = j by omega,
      show w⁻¹ ^ P = w⁻¹ ^ (P - j) * w⁻¹ ^ j by rw [← pow_add]; congr 1; omega]
    rw [inv_pow w j]
    have := pow_ne_zero j hw0
    field_simp
  rw [transferAt, hnum, norm_div, norm_mul, norm_pow, norm_inv, hw, Complex.norm_conj, inv_one, one_pow, one_mul,
    div_self (norm_ne_zero_iff.2 h0)]

end Spec
