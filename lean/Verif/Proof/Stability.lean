import Verif.Spec.Stability
import Verif.Proof.Transfer
import Mathlib.Analysis.Complex.Polynomial.Basic
import Mathlib.Algebra.Polynomial.Reverse
import Mathlib.Analysis.Normed.Ring.InfiniteSum
import Mathlib.Analysis.SpecificLimits.Normed
import Mathlib.RingTheory.Polynomial.Basic

/-! # Bounds on outputs -/

namespace Spec
open Polynomial Finset

theorem denPoly_coeff (P : Nat) (a : Nat → ℂ) {k : Nat} (hk : k ≤ P) : (denPoly P a).coeff (P - k) = denom P a k := by
  unfold denPoly
  rw [coeff_add, coeff_X_pow, finsetSum_coeff]
  simp only [coeff_C_mul, coeff_X_pow]
  cases k with
  | zero =>
    rw [if_pos (by omega), denom, if_pos rfl, sum_eq_zero, add_zero]
    intro k hk
    have := mem_range.1 hk
    rw [if_neg (by omega), mul_zero]
  | succ k =>
    rw [if_neg (by omega), denom, if_neg (by omega), if_pos (by omega), zero_add, sum_eq_single k]
    · rw [if_pos (by omega), mul_one]; rfl
    · intro j hj h
      have := mem_range.1 hj
      rw [if_neg (by omega), mul_zero]
    · intro h
      exact absurd (mem_range.2 (by omega)) h

theorem denPoly_natDegree (P : Nat) (a : Nat → ℂ) : (denPoly P a).natDegree = P ∧ (denPoly P a).Monic := by
  have h1 : (denPoly P a).coeff P = 1 := denPoly_coeff P a (k := 0) P.zero_le
  have h2 : (denPoly P a).natDegree ≤ P := by
    unfold denPoly
    refine natDegree_add_le_of_degree_le (natDegree_X_pow_le P) (natDegree_sum_le_of_forall_le _ _ fun k _ => ?_)
    exact (natDegree_C_mul_X_pow_le _ _).trans (by omega)
  have h3 : (denPoly P a).natDegree = P := natDegree_eq_of_le_of_coeff_ne_zero h2 (by rw [h1]; exact one_ne_zero)
  exact ⟨h3, by rw [Monic, leadingCoeff, h3, h1]⟩

theorem denPoly_reverse (P : Nat) (a : Nat → ℂ) : (((denPoly P a).reverse : ℂ[X]) : PowerSeries ℂ) = PowerSeries.mk (denom P a) := by
  ext n
  rw [coeff_coe, coeff_reverse, PowerSeries.coeff_mk, (denPoly_natDegree P a).1]
  by_cases h : n ≤ P
  · rw [revAt_le h, denPoly_coeff P a h]
  · rw [revAt_eq_self_of_lt (by omega), coeff_eq_zero_of_natDegree_lt (by rw [(denPoly_natDegree P a).1]; omega), denom,
      if_neg (by omega), if_neg (by omega)]

theorem reverse_X_sub_C (p : ℂ) : (X - C p : ℂ[X]).reverse = 1 - C p * X := by
  rw [reverse, natDegree_X_sub_C, reflect_sub, reflect_one_X, reflect_C, pow_one]

/-- The denominator is the product of `1 - p/z` over the poles. -/
theorem denom_poles (P : Nat) (a : Nat → ℂ) :
    PowerSeries.mk (denom P a) = ((poles P a).map fun p => 1 - PowerSeries.C p * PowerSeries.X).prod := by
  have h := (IsAlgClosed.splits (denPoly P a)).eq_prod_roots_of_monic (denPoly_natDegree P a).2
  rw [← denPoly_reverse]
  conv_lhs => rw [h]
  unfold poles
  generalize (denPoly P a).roots = s
  induction s using Multiset.induction_on with
  | empty =>
    rw [Multiset.map_zero, Multiset.map_zero, Multiset.prod_zero, Multiset.prod_zero, ← C_1, reverse_C, C_1, Polynomial.coe_one]
  | cons p s ih =>
    simp only [Multiset.map_cons, Multiset.prod_cons]
    rw [reverse_mul_of_domain, Polynomial.coe_mul, ih, reverse_X_sub_C, Polynomial.coe_sub, Polynomial.coe_one,
      Polynomial.coe_mul, coe_C, coe_X]

theorem first_order_bound {p : ℂ} (hp : ‖p‖ < 1) {y : PowerSeries ℂ} {W : ℝ}
    (h : ∀ n, ‖PowerSeries.coeff n ((1 - PowerSeries.C p * PowerSeries.X) * y)‖ ≤ W) (n : Nat) :
    ‖PowerSeries.coeff n y‖ ≤ (1 - ‖p‖)⁻¹ * W := by
  have hW : 0 ≤ W := (norm_nonneg _).trans (h 0)
  have h1 : 0 < 1 - ‖p‖ := by linarith
  have e : ∀ n, PowerSeries.coeff (n + 1) y =
      PowerSeries.coeff (n + 1) ((1 - PowerSeries.C p * PowerSeries.X) * y) + p * PowerSeries.coeff n y := by
    intro n
    rw [sub_mul, one_mul, map_sub, mul_assoc, PowerSeries.coeff_C_mul, PowerSeries.coeff_succ_X_mul]
    ring
  have hk : W + ‖p‖ * ((1 - ‖p‖)⁻¹ * W) = (1 - ‖p‖)⁻¹ * W := by field_simp; ring
  induction n with
  | zero =>
    have h0 := h 0
    rw [sub_mul, one_mul, map_sub, mul_assoc, PowerSeries.coeff_C_mul, PowerSeries.coeff_zero_X_mul, mul_zero, sub_zero] at h0
    rw [← hk]
    have : 0 ≤ ‖p‖ * ((1 - ‖p‖)⁻¹ * W) := by positivity
    linarith
  | succ n ih =>
    rw [e n, ← hk]
    refine (norm_add_le _ _).trans (add_le_add (h _) ?_)
    rw [norm_mul]
    exact mul_le_mul_of_nonneg_left ih (norm_nonneg _)

theorem poles_bound {s : Multiset ℂ} (hs : ∀ p ∈ s, ‖p‖ < 1) {y : PowerSeries ℂ} {W : ℝ}
    (h : ∀ n, ‖PowerSeries.coeff n ((s.map fun p => 1 - PowerSeries.C p * PowerSeries.X).prod * y)‖ ≤ W) (n : Nat) :
    ‖PowerSeries.coeff n y‖ ≤ (s.map fun p => (1 - ‖p‖)⁻¹).prod * W := by
  induction s using Multiset.induction_on generalizing y W n with
  | empty => simpa using h n
  | cons p s ih =>
    simp only [Multiset.map_cons, Multiset.prod_cons] at h ⊢
    rw [mul_comm (1 - ‖p‖)⁻¹, mul_assoc]
    refine ih (fun q hq => hs q (Multiset.mem_cons_of_mem hq)) (fun n => ?_) n
    refine first_order_bound (hs p (Multiset.mem_cons_self p s)) (fun n => ?_) n
    rw [← mul_assoc]
    exact h n

/-- `b x` is at most `Σ|b|` times the bound of `x`. -/
theorem conv_bound {K : Nat} {b x : Nat → ℂ} {X : ℝ} (hx : ∀ n, ‖x n‖ ≤ X) (n : Nat) :
    ‖conv (zext K b) x n‖ ≤ (∑ j ∈ range K, ‖b j‖) * X := by
  have hX : 0 ≤ X := (norm_nonneg _).trans (hx 0)
  unfold conv
  refine (norm_sum_le _ _).trans ?_
  have : ∀ k, ‖zext K b k * x (n - k)‖ ≤ (if k < K then ‖b k‖ else 0) * X := by
    intro k
    unfold zext
    split
    · rw [norm_mul]; exact mul_le_mul_of_nonneg_left (hx _) (norm_nonneg _)
    · simp
  refine (sum_le_sum fun k _ => this k).trans ?_
  rw [← sum_mul]
  refine mul_le_mul_of_nonneg_right ?_ hX
  rw [← sum_filter]
  refine sum_le_sum_of_subset_of_nonneg (fun k hk => ?_) fun _ _ _ => norm_nonneg _
  exact mem_range.2 (mem_filter.1 hk).2

/-- A filter with all its poles inside the unit circle. -/
theorem series_bound {K P : Nat} {b a x y : Nat → ℂ} {X : ℝ} (hp : ∀ p ∈ poles P a, ‖p‖ < 1) (hx : ∀ n, ‖x n‖ ≤ X)
    (h : PowerSeries.mk (denom P a) * PowerSeries.mk y = PowerSeries.mk (zext K b) * PowerSeries.mk x) (n : Nat) :
    ‖y n‖ ≤ ((poles P a).map fun p => (1 - ‖p‖)⁻¹).prod * ((∑ j ∈ range K, ‖b j‖) * X) := by
  have k := poles_bound hp (y := PowerSeries.mk y) (W := (∑ j ∈ range K, ‖b j‖) * X) (fun n => ?_) n
  · rwa [PowerSeries.coeff_mk] at k
  · rw [← denom_poles, h, ← mk_conv, PowerSeries.coeff_mk]
    exact conv_bound hx n

/-- The value of a convolution is the product of the values. -/
theorem conv_value {f g : Nat → ℂ} {w : ℂ} (hf : Summable fun n => ‖f n * w ^ n‖) (hg : Summable fun n => ‖g n * w ^ n‖) :
    (∑' n, f n * w ^ n) * (∑' n, g n * w ^ n) = ∑' n, conv f g n * w ^ n := by
  rw [tsum_mul_tsum_eq_tsum_sum_range_of_summable_norm hf hg]
  refine tsum_congr fun n => ?_
  unfold conv
  rw [sum_mul]
  refine sum_congr rfl fun k hk => ?_
  have := mem_range.1 hk
  rw [show w ^ n = w ^ k * w ^ (n - k) by rw [← pow_add]; congr 1; omega]
  ring

/-- `b_0 z^{K-1} + … + b_{K-1}` vanishes at `p ≠ 0` iff `Σ b_j p^{-j}` does. -/
theorem finite_value {K : Nat} {f : Nat → ℂ} (h : ∀ n, K ≤ n → f n = 0) (w : ℂ) :
    ∑' n, f n * w ^ n = ∑ n ∈ range K, f n * w ^ n := by
  refine tsum_eq_sum fun n hn => ?_
  rw [h n (by simpa using hn), zero_mul]

/-- A pole is a zero of the denominator. -/
theorem pole_root {P : Nat} {a : Nat → ℂ} {p : ℂ} (p0 : p ≠ 0) (hp : p ∈ poles P a) :
    ∑ n ∈ range (P + 1), denom P a n * p⁻¹ ^ n = 0 := by
  have r : (denPoly P a).eval p = 0 := (mem_roots'.1 hp).2
  rw [eval_eq_sum_range, (denPoly_natDegree P a).1, ← sum_range_reflect] at r
  have : p ^ P * ∑ n ∈ range (P + 1), denom P a n * p⁻¹ ^ n = 0 := by
    rw [mul_sum, ← r]
    refine sum_congr rfl fun n hn => ?_
    have := mem_range.1 hn
    rw [show P + 1 - 1 - n = P - n by omega, denPoly_coeff P a (by omega),
      show p ^ P = p ^ (P - n) * p ^ n by rw [← pow_add]; congr 1; omega, inv_pow]
    field_simp
  exact (mul_eq_zero.1 this).resolve_left (pow_ne_zero _ p0)

/-- A bounded response has no poles outside the unit circle, except those cancelled by zeros. -/
theorem bounded_poles {K P : Nat} {b a h : Nat → ℂ} {H : ℝ} (hh : ∀ n, ‖h n‖ ≤ H)
    (he : PowerSeries.mk (denom P a) * PowerSeries.mk h = PowerSeries.mk (zext K b)) {p : ℂ} (hp : p ∈ poles P a)
    (h1 : 1 < ‖p‖) : ∑ j ∈ range K, b j * p⁻¹ ^ j = 0 := by
  have p0 : p ≠ 0 := by rintro rfl; simp at h1; linarith
  have hw : ‖p⁻¹‖ < 1 := by rw [norm_inv]; exact inv_lt_one_of_one_lt₀ h1
  have hH : 0 ≤ H := (norm_nonneg _).trans (hh 0)
  have d0 : ∀ n, P + 1 ≤ n → denom P a n = 0 := fun n hn => by rw [denom, if_neg (by omega), if_neg (by omega)]
  have b0 : ∀ n, K ≤ n → zext K b n = 0 := fun n hn => by rw [zext, if_neg (by omega)]
  have s1 : Summable fun n => ‖denom P a n * p⁻¹ ^ n‖ :=
    summable_of_ne_finset_zero (s := range (P + 1)) fun n hn => by
      rw [d0 n (by simpa using hn), zero_mul, norm_zero]
  have s2 : Summable fun n => ‖h n * p⁻¹ ^ n‖ := by
    refine Summable.of_nonneg_of_le (fun _ => norm_nonneg _) (fun n => ?_)
      ((summable_geometric_of_lt_one (norm_nonneg _) hw).mul_left H)
    rw [norm_mul, norm_pow]
    exact mul_le_mul_of_nonneg_right (hh n) (by positivity)
  have k := conv_value s1 s2
  rw [finite_value d0, show conv (denom P a) h = zext K b from mk_inj (by rw [mk_conv, he]), finite_value b0] at k
  have root := pole_root p0 hp
  rw [root, zero_mul] at k
  rw [k]
  exact sum_congr rfl fun j hj => by rw [zext, if_pos (mem_range.1 hj)]

/-- A bounded response to the powers of a pole on the unit circle: the numerator cancels the pole. -/
theorem circle_pole {K P : Nat} {b a y : Nat → ℂ} {H : ℝ} {p : ℂ} (hy : ∀ n, ‖y n‖ ≤ H)
    (he : PowerSeries.mk (denom P a) * PowerSeries.mk y = PowerSeries.mk (zext K b) * PowerSeries.mk fun n => p ^ n)
    (hp : p ∈ poles P a) (h1 : ‖p‖ = 1) : ∑ j ∈ range K, b j * p⁻¹ ^ j = 0 := by
  have p0 : p ≠ 0 := by rintro rfl; simp at h1
  have hH : 0 ≤ H := (norm_nonneg _).trans (hy 0)
  have d0 : ∀ n, P + 1 ≤ n → denom P a n = 0 := fun n hn => by rw [denom, if_neg (by omega), if_neg (by omega)]
  have b0 : ∀ n, K ≤ n → zext K b n = 0 := fun n hn => by rw [zext, if_neg (by omega)]
  have hc : conv (denom P a) y = conv (zext K b) fun n => p ^ n := mk_inj (by rw [mk_conv, mk_conv, he])
  -- the same inside the circle
  have key : ∀ s : ℝ, 0 < s → s < 1 →
      ‖∑ j ∈ range K, zext K b j * ((s : ℂ) * p⁻¹) ^ j‖ ≤ H * ‖∑ n ∈ range (P + 1), denom P a n * ((s : ℂ) * p⁻¹) ^ n‖ := by
    intro s s0 s1
    have hw : ‖(s : ℂ) * p⁻¹‖ = s := by rw [norm_mul, norm_inv, h1, inv_one, mul_one, Complex.norm_real, Real.norm_of_nonneg s0.le]
    set w : ℂ := (s : ℂ) * p⁻¹ with hwdef
    have sg := summable_geometric_of_lt_one s0.le s1
    have sd : Summable fun n => ‖denom P a n * w ^ n‖ :=
      summable_of_ne_finset_zero (s := range (P + 1)) fun n hn => by rw [d0 n (by simpa using hn), zero_mul, norm_zero]
    have sb : Summable fun n => ‖zext K b n * w ^ n‖ :=
      summable_of_ne_finset_zero (s := range K) fun n hn => by rw [b0 n (by simpa using hn), zero_mul, norm_zero]
    have ny : ∀ n, ‖y n * w ^ n‖ ≤ H * s ^ n := by
      intro n
      rw [norm_mul, norm_pow, hw]
      exact mul_le_mul_of_nonneg_right (hy n) (by positivity)
    have sy : Summable fun n => ‖y n * w ^ n‖ :=
      Summable.of_nonneg_of_le (fun _ => norm_nonneg _) ny (sg.mul_left H)
    have e : ∀ n, p ^ n * w ^ n = (s : ℂ) ^ n := by
      intro n
      rw [← mul_pow, hwdef, show p * ((s : ℂ) * p⁻¹) = s by field_simp]
    have sx : Summable fun n => ‖p ^ n * w ^ n‖ := by
      refine sg.congr fun n => ?_
      rw [e, norm_pow, Complex.norm_real, Real.norm_of_nonneg s0.le]
    have k := (conv_value sd sy).trans ((tsum_congr fun n => by rw [hc]).trans (conv_value sb sx).symm)
    rw [finite_value d0, finite_value b0, tsum_congr e, tsum_geometric_of_norm_lt_one (by
      rw [Complex.norm_real, Real.norm_of_nonneg s0.le]; exact s1)] at k
    have hs : (1 - (s : ℂ)) ≠ 0 := by
      rw [← Complex.ofReal_one, ← Complex.ofReal_sub]; exact_mod_cast (by linarith : (1 - s) ≠ 0)
    have k' : ∑ j ∈ range K, zext K b j * w ^ j =
        (1 - (s : ℂ)) * ((∑ n ∈ range (P + 1), denom P a n * w ^ n) * ∑' n, y n * w ^ n) := by
      rw [k]; field_simp
    have hY : ‖∑' n, y n * w ^ n‖ ≤ H * (1 - s)⁻¹ := by
      refine (norm_tsum_le_tsum_norm sy).trans ?_
      rw [← tsum_geometric_of_lt_one s0.le s1, ← tsum_mul_left]
      exact sy.tsum_le_tsum ny (sg.mul_left H)
    have h1s : ‖1 - (s : ℂ)‖ = 1 - s := by
      rw [← Complex.ofReal_one, ← Complex.ofReal_sub, Complex.norm_real, Real.norm_of_nonneg (by linarith)]
    rw [k', norm_mul, norm_mul, h1s]
    have hps : 0 < 1 - s := by linarith
    calc (1 - s) * (‖∑ n ∈ range (P + 1), denom P a n * w ^ n‖ * ‖∑' n, y n * w ^ n‖)
        ≤ (1 - s) * (‖∑ n ∈ range (P + 1), denom P a n * w ^ n‖ * (H * (1 - s)⁻¹)) := by gcongr
      _ = H * ‖∑ n ∈ range (P + 1), denom P a n * w ^ n‖ := by field_simp
  -- the limit on the circle
  have lim : ∀ (n : Nat) (f : Nat → ℂ), Filter.Tendsto (fun s : ℝ => ‖∑ j ∈ range n, f j * ((s : ℂ) * p⁻¹) ^ j‖)
      (nhdsWithin 1 (Set.Iio 1)) (nhds ‖∑ j ∈ range n, f j * p⁻¹ ^ j‖) := by
    intro n f
    have hcont : Continuous fun s : ℝ => ‖∑ j ∈ range n, f j * ((s : ℂ) * p⁻¹) ^ j‖ := by fun_prop
    have := hcont.tendsto 1
    simp only [Complex.ofReal_one, one_mul] at this
    exact this.mono_left nhdsWithin_le_nhds
  have fin := le_of_tendsto_of_tendsto (lim K (zext K b)) ((lim (P + 1) (denom P a)).const_mul H) (by
    have h0 : ∀ᶠ s : ℝ in nhdsWithin 1 (Set.Iio 1), 0 < s :=
      nhdsWithin_le_nhds (lt_mem_nhds one_pos)
    filter_upwards [h0, self_mem_nhdsWithin] with s s0 s1
    exact key s s0 s1)
  rw [pole_root p0 hp, norm_zero, mul_zero] at fin
  have := norm_le_zero_iff.1 fin
  rw [← this]
  exact sum_congr rfl fun j hj => by rw [zext, if_pos (mem_range.1 hj)]

end Spec
