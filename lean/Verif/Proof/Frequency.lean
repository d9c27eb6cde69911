import Verif.Spec.Frequency
import Verif.Proof.Stability
import Mathlib.RingTheory.PowerSeries.Substitution

/-! # Frequency response -/

namespace Spec
open Polynomial Finset

theorem denPoly_eval {P : Nat} {a : Nat → ℂ} {w : ℂ} (hw : w ≠ 0) : (denPoly P a).eval w = w ^ P * denAt P a w := by
  unfold denPoly denAt
  rw [eval_add, eval_pow, eval_X, eval_finsetSum, mul_add, mul_one, mul_sum]
  refine congrArg₂ (· + ·) rfl (sum_congr rfl fun k hk => ?_)
  have := mem_range.1 hk
  rw [eval_mul, eval_C, eval_pow, eval_X, show P = (P - 1 - k) + (k + 1) by omega, pow_add,
    show P - 1 - k + (k + 1) - 1 - k = P - 1 - k by omega, inv_pow]
  have h : w ^ (k + 1) ≠ 0 := pow_ne_zero _ hw
  field_simp

/-- The denominator vanishes only at the poles. -/
theorem denAt_ne_zero {P : Nat} {a : Nat → ℂ} {w : ℂ} (hw : w ≠ 0) (h : w ∉ poles P a) : denAt P a w ≠ 0 := by
  intro h0
  refine h ((mem_roots (denPoly_natDegree P a).2.ne_zero).2 ?_)
  rw [IsRoot, denPoly_eval hw, h0, mul_zero]

/-- A series that becomes a polynomial when multiplied by the denominator decays like any power above the largest pole. -/
theorem series_decay {s : Multiset ℂ} {r : ℝ} (hr : 0 < r) (hs : ∀ p ∈ s, ‖p‖ < r) {y q : PowerSeries ℂ} {L : Nat}
    (h : (s.map fun p => 1 - PowerSeries.C p * PowerSeries.X).prod * y = q) (hq : ∀ n, L ≤ n → PowerSeries.coeff n q = 0) :
    ∃ G, ∀ n, ‖PowerSeries.coeff n y‖ ≤ G * r ^ n := by
  have hr0 : (r : ℂ) ≠ 0 := by exact_mod_cast hr.ne'
  have e := congrArg (PowerSeries.rescale (r : ℂ)⁻¹) h
  rw [map_mul, map_multiset_prod, Multiset.map_map] at e
  have e2 : (s.map (PowerSeries.rescale (r : ℂ)⁻¹ ∘ fun p => 1 - PowerSeries.C p * PowerSeries.X)) =
      (s.map fun p => p / (r : ℂ)).map fun p => 1 - PowerSeries.C p * PowerSeries.X := by
    rw [Multiset.map_map]
    refine Multiset.map_congr rfl fun p _ => ?_
    simp only [Function.comp]
    rw [map_sub, map_one, map_mul]
    ext n
    rw [map_sub, map_sub]
    congr 1
    rw [PowerSeries.coeff_C_mul]
    rw [show PowerSeries.rescale (r : ℂ)⁻¹ (PowerSeries.C p) = PowerSeries.C p by
      ext m; rw [PowerSeries.coeff_rescale, PowerSeries.coeff_C]; split <;> simp_all]
    rw [PowerSeries.coeff_C_mul, PowerSeries.coeff_rescale, PowerSeries.coeff_X]
    split
    · next h => rw [h]; ring
    · ring
  rw [e2] at e
  have hb := poles_bound (s := s.map fun p => p / (r : ℂ)) (fun p hp => ?_) (y := PowerSeries.rescale (r : ℂ)⁻¹ y)
    (W := ∑ n ∈ range L, ‖PowerSeries.coeff n (PowerSeries.rescale (r : ℂ)⁻¹ q)‖) (fun n => ?_)
  · refine ⟨((s.map fun p => p / (r : ℂ)).map fun p => (1 - ‖p‖)⁻¹).prod *
      ∑ n ∈ range L, ‖PowerSeries.coeff n (PowerSeries.rescale (r : ℂ)⁻¹ q)‖, fun n => ?_⟩
    have k := hb n
    rw [PowerSeries.coeff_rescale, norm_mul, norm_pow, norm_inv, Complex.norm_real, Real.norm_of_nonneg hr.le, inv_pow,
      inv_mul_le_iff₀ (pow_pos hr n)] at k
    exact k.trans (le_of_eq (mul_comm _ _))
  · obtain ⟨p, hp', rfl⟩ := Multiset.mem_map.1 hp
    rw [norm_div, Complex.norm_real, Real.norm_of_nonneg hr.le, div_lt_one hr]
    exact hs p hp'
  · rw [e]
    by_cases hn : n < L
    · exact single_le_sum (f := fun n => ‖PowerSeries.coeff n (PowerSeries.rescale (r : ℂ)⁻¹ q)‖)
        (fun _ _ => norm_nonneg _) (mem_range.2 hn)
    · rw [PowerSeries.coeff_rescale, hq n (by omega), mul_zero, norm_zero]
      exact sum_nonneg fun _ _ => norm_nonneg _

/-- Extending a bound to a finite start. -/
theorem decay_extend {y : Nat → ℂ} {r G : ℝ} (hr : 0 < r) (K : Nat) (h : ∀ t, K ≤ t → ‖y t‖ ≤ G * r ^ t) :
    ∃ G', ∀ t, ‖y t‖ ≤ G' * r ^ t := by
  refine ⟨|G| + ∑ t ∈ range K, ‖y t‖ / r ^ t, fun t => ?_⟩
  have hp := pow_pos hr t
  have h0 : 0 ≤ ∑ t ∈ range K, ‖y t‖ / r ^ t := sum_nonneg fun t _ => div_nonneg (norm_nonneg _) (pow_pos hr t).le
  by_cases ht : K ≤ t
  · refine (h t ht).trans (mul_le_mul_of_nonneg_right ?_ hp.le)
    linarith [le_abs_self G]
  · have k := single_le_sum (f := fun t => ‖y t‖ / r ^ t) (fun t _ => div_nonneg (norm_nonneg _) (pow_pos hr t).le)
      (mem_range.2 (not_le.1 ht))
    calc ‖y t‖ = ‖y t‖ / r ^ t * r ^ t := (div_mul_cancel₀ _ hp.ne').symm
      _ ≤ _ := mul_le_mul_of_nonneg_right (by linarith [abs_nonneg G]) hp.le

/-- The homogeneous recursion decays. -/
theorem signal_decay {P : Nat} {a : Nat → ℂ} {v : Int → ℂ} {r : ℝ} (hr : 0 < r) (hp : ∀ p ∈ poles P a, ‖p‖ < r)
    (h : ∀ n : Nat, v n = -taps P a v ((n : Int) - 1)) : ∃ G, ∀ n : Nat, ‖v n‖ ≤ G * r ^ n := by
  have hq : ∀ n, P ≤ n → PowerSeries.coeff n (PowerSeries.mk (denom P a) * PowerSeries.mk fun n : Nat => v n) = 0 := by
    intro n hn
    rw [← mk_conv, PowerSeries.coeff_mk]
    have e := denom_conv P a (y := fun n => if n < 0 then 0 else v n) (fun n hn => if_pos hn) n
    have e1 : (fun t : Nat => (fun n : Int => if n < 0 then 0 else v n) t) = fun t : Nat => v t :=
      funext fun t => if_neg (by omega)
    rw [e1] at e
    rw [e, if_neg (by omega), h n, neg_add_eq_zero]
    refine sum_congr rfl fun k hk => ?_
    have := mem_range.1 hk
    beta_reduce
    rw [if_neg (by omega)]
  rw [denom_poles] at hq
  obtain ⟨G, hG⟩ := series_decay hr hp rfl hq
  exact ⟨G, fun n => by have := hG n; rwa [PowerSeries.coeff_mk] at this⟩

/-- So do taps applied to it. -/
theorem taps_decay {K P : Nat} {b a : Nat → ℂ} {v : Int → ℂ} {r : ℝ} (hr : 0 < r) (hp : ∀ p ∈ poles P a, ‖p‖ < r)
    (h : ∀ n : Nat, v n = -taps P a v ((n : Int) - 1)) : ∃ G, ∀ t : Nat, ‖taps K b v t‖ ≤ G * r ^ t := by
  obtain ⟨G, hG⟩ := signal_decay hr hp h
  refine decay_extend (G := (∑ j ∈ range K, ‖b j‖ * |G| * (r ^ j)⁻¹)) hr K fun t ht => ?_
  rw [taps, sum_mul]
  refine (norm_sum_le _ _).trans (sum_le_sum fun j hj => ?_)
  have hj := mem_range.1 hj
  rw [norm_mul, mul_assoc, mul_assoc]
  refine mul_le_mul_of_nonneg_left ?_ (norm_nonneg _)
  have k := hG (t - j)
  rw [Nat.cast_sub (by omega)] at k
  refine k.trans ?_
  rw [show r ^ t = r ^ j * r ^ (t - j) by rw [← pow_add]; congr 1; omega, inv_mul_cancel_left₀ (pow_pos hr j).ne']
  exact mul_le_mul_of_nonneg_right (le_abs_self G) (pow_pos hr _).le

theorem taps_sub (L : Nat) (g : Nat → ℂ) (v v' : Int → ℂ) (n : Int) :
    taps L g (fun n => v n - v' n) n = taps L g v n - taps L g v' n := by
  unfold taps
  rw [← sum_sub_distrib]
  exact sum_congr rfl fun j _ => mul_sub _ _ _

/-- The transposed delay line without input decays. -/
theorem delayLine_decay {M P : Nat} {a d : Nat → ℂ} {e : Nat → Nat → ℂ} {r : ℝ} (hr : 0 < r) (hp : ∀ p ∈ poles P a, ‖p‖ < r)
    (hM : 0 < M) (hPM : P ≤ M) (hd : ∀ t, d t = e t 0)
    (he : ∀ t m, m < M → e (t + 1) m = (if m + 1 < M then e t (m + 1) else 0) - zext P a m * d t) :
    ∃ G, ∀ t, ‖d t‖ ≤ G * r ^ t := by
  have h1 : ∀ t m, m < M → e t m = (if m + t < M then e 0 (m + t) else 0) - ∑ j ∈ range t, zext P a (m + j) * d (t - 1 - j) := by
    intro t
    induction t with
    | zero => intro m hm; rw [add_zero, if_pos hm, range_zero, sum_empty, sub_zero]
    | succ t ih =>
      intro m hm
      rw [he t m hm, sum_range_succ', add_zero, Nat.add_sub_cancel, Nat.sub_zero, ← sub_sub]
      refine congrArg₂ (· - ·) ?_ rfl
      have e2 : ∀ j, zext P a (m + (j + 1)) * d (t - (j + 1)) = zext P a (m + 1 + j) * d (t - 1 - j) := by
        intro j; rw [show m + (j + 1) = m + 1 + j by omega, show t - (j + 1) = t - 1 - j by omega]
      simp only [e2]
      by_cases h : m + 1 < M
      · rw [if_pos h, ih _ h, show m + 1 + t = m + (t + 1) by omega]
      · rw [if_neg h, if_neg (by omega), sum_eq_zero fun j _ => ?_, sub_zero]
        rw [zext, if_neg (by omega), zero_mul]
  have hq : ∀ n, M ≤ n → PowerSeries.coeff n (PowerSeries.mk (denom P a) * PowerSeries.mk d) = 0 := by
    intro n hn
    rw [← mk_conv, PowerSeries.coeff_mk, conv, sum_range_succ', denom, if_pos rfl, one_mul, Nat.sub_zero, hd n, h1 n 0 hM,
      if_neg (by omega), zero_sub]
    refine add_neg_eq_zero.2 (sum_congr rfl fun j _ => ?_)
    rw [denom, if_neg (by omega), Nat.add_sub_cancel, zero_add, show n - (j + 1) = n - 1 - j by omega, zext]
  rw [denom_poles] at hq
  obtain ⟨G, hG⟩ := series_decay hr hp rfl hq
  exact ⟨G, fun n => by have := hG n; rwa [PowerSeries.coeff_mk] at this⟩

/-- The stationary internal signal. -/
theorem steady_taps {w : ℂ} (hw : w ≠ 0) (K : Nat) (b : Nat → ℂ) (d : ℂ) (n : Int) :
    taps K b (fun n => d * w ^ n) n = d * w ^ n * ∑ j ∈ range K, b j * w⁻¹ ^ j := by
  unfold taps
  rw [mul_sum]
  refine sum_congr rfl fun j _ => ?_
  beta_reduce
  rw [zpow_sub₀ hw, zpow_natCast, inv_pow]
  ring

theorem steady_eq {P : Nat} {a : Nat → ℂ} {w c : ℂ} (hw : w ≠ 0) (ha : denAt P a w ≠ 0) (n : Int) :
    c / denAt P a w * w ^ n = c * w ^ n - taps P a (fun n => c / denAt P a w * w ^ n) (n - 1) := by
  rw [steady_taps hw, zpow_sub_one₀ hw, eq_sub_iff_add_eq]
  have : w ^ n * w⁻¹ * ∑ j ∈ range P, a j * w⁻¹ ^ j = w ^ n * (denAt P a w - 1) := by
    unfold denAt
    rw [add_sub_cancel_left, mul_assoc, mul_sum]
    refine congrArg _ (sum_congr rfl fun j _ => ?_)
    rw [pow_succ]; ring
  rw [mul_assoc, this]
  field_simp
  ring

/-- The internal signal of a filter driven by an exponential approaches the stationary one. -/
theorem response_decay {K P : Nat} {b a : Nat → ℂ} {w c : ℂ} {v : Int → ℂ} {r : ℝ} (hr : 0 < r)
    (hp : ∀ p ∈ poles P a, ‖p‖ < r) (hw : w ≠ 0) (ha : denAt P a w ≠ 0)
    (h : ∀ n : Nat, v n = c * w ^ n - taps P a v ((n : Int) - 1)) :
    ∃ G, ∀ t : Nat, ‖taps K b v t - transferAt K P b a w * (c * w ^ t)‖ ≤ G * r ^ t := by
  obtain ⟨G, hG⟩ := taps_decay (K := K) (b := b) (v := fun n => v n - c / denAt P a w * w ^ n) hr hp (fun n => by
    rw [taps_sub P a v fun n => c / denAt P a w * w ^ n, h n, steady_eq hw ha (n : Int), zpow_natCast]
    ring)
  refine ⟨G, fun t => ?_⟩
  have k := hG t
  rw [taps_sub K b v fun n => c / denAt P a w * w ^ n, steady_taps hw, zpow_natCast] at k
  rwa [transferAt, show ∀ s d : ℂ, s / d * (c * w ^ t) = c / d * w ^ t * s from fun s d => by ring]

/-- The same for the series of the output from rest. -/
theorem series_response {K P : Nat} {b a y : Nat → ℂ} {w c : ℂ} {r : ℝ} (hr : 0 < r) (hp : ∀ p ∈ poles P a, ‖p‖ < r)
    (hw : w ≠ 0) (ha : denAt P a w ≠ 0)
    (h : PowerSeries.mk (denom P a) * PowerSeries.mk y = PowerSeries.mk (zext K b) * PowerSeries.mk fun n => c * w ^ n) :
    ∃ G, ∀ t : Nat, ‖y t - transferAt K P b a w * (c * w ^ t)‖ ≤ G * r ^ t := by
  obtain ⟨i, hi⟩ := (denom_isUnit P a).exists_right_inv
  let V := i * PowerSeries.mk fun n => c * w ^ n
  have hV : V = PowerSeries.mk fun n => PowerSeries.coeff n V := PowerSeries.ext fun n => by rw [PowerSeries.coeff_mk]
  have h1 : PowerSeries.mk (denom P a) * PowerSeries.mk (fun n => PowerSeries.coeff n V) = PowerSeries.mk fun n => c * w ^ n := by
    rw [← hV, ← mul_assoc, hi, one_mul]
  have h2 : PowerSeries.mk y = PowerSeries.mk (zext K b) * PowerSeries.mk fun n => PowerSeries.coeff n V := by
    refine (denom_isUnit P a).mul_left_cancel ?_
    rw [h, mul_left_comm, h1]
  let v : Int → ℂ := causal fun n => PowerSeries.coeff n V
  have hv0 : ∀ n, n < 0 → v n = 0 := fun n hn => if_pos hn
  have hvn : (fun n : Nat => v n) = fun n => PowerSeries.coeff n V := by
    funext n
    change causal _ _ = _
    rw [causal, if_neg (by omega), Int.toNat_natCast]
  rw [← hvn, ← mk_conv] at h1 h2
  obtain ⟨G, hG⟩ := response_decay (K := K) (b := b) (v := v) hr hp hw ha (c := c) (fun n => by
    rw [eq_sub_iff_add_eq, ← denom_conv P a hv0]
    exact congrFun (mk_inj h1) n)
  refine ⟨G, fun t => ?_⟩
  have := hG t
  rwa [taps_conv K b hv0, ← congrFun (mk_inj h2) t] at this

/-- With real coefficients the response to the real part of a signal is the real part of the response. -/
theorem series_re {K P : Nat} {b a : Nat → ℝ} {x y : Nat → ℂ}
    (h : PowerSeries.mk (denom P fun k => (a k : ℂ)) * PowerSeries.mk y =
      PowerSeries.mk (zext K fun k => (b k : ℂ)) * PowerSeries.mk x) :
    PowerSeries.mk (denom P a) * PowerSeries.mk (fun n => (y n).re) = PowerSeries.mk (zext K b) * PowerSeries.mk fun n => (x n).re := by
  rw [← mk_conv, ← mk_conv] at h ⊢
  congr 1
  funext n
  have e := congrArg Complex.re (congrFun (mk_inj h) n)
  rw [show (denom P fun k => (a k : ℂ)) = fun n => ((denom P a n : ℝ) : ℂ) by
      funext n; unfold denom; split_ifs <;> simp,
    show (zext K fun k => (b k : ℂ)) = fun n => ((zext K b n : ℝ) : ℂ) by
      funext n; unfold zext; split_ifs <;> simp] at e
  unfold conv at e ⊢
  rw [Complex.re_sum, Complex.re_sum] at e
  simpa only [Complex.re_ofReal_mul] using e

/-- A stable filter decays at some rate below 1. -/
theorem exists_rate {s : Multiset ℂ} (h : ∀ p ∈ s, ‖p‖ < 1) : ∃ r : ℝ, 0 < r ∧ r < 1 ∧ ∀ p ∈ s, ‖p‖ < r := by
  induction s using Multiset.induction_on with
  | empty => exact ⟨1 / 2, by norm_num, by norm_num, by simp⟩
  | cons p s ih =>
    obtain ⟨r, h0, h1, h2⟩ := ih fun q hq => h q (Multiset.mem_cons_of_mem hq)
    obtain ⟨q, hq1, hq2⟩ := exists_between (h p (Multiset.mem_cons_self p s))
    refine ⟨max r q, lt_max_of_lt_left h0, max_lt h1 hq2, fun x hx => ?_⟩
    rcases Multiset.mem_cons.1 hx with rfl | hx
    · exact lt_max_of_lt_right hq1
    · exact lt_max_of_lt_left (h2 x hx)

/-- Transfer functions with the same value at infinitely many points are the same. -/
theorem sameTransfer_of_infinite {K P K' P' : Nat} {b a b' a' : Nat → ℂ} {S : Set ℂ} (hS : S.Infinite)
    (h : ∀ w ∈ S, w ≠ 0 ∧ denAt P a w ≠ 0 ∧ denAt P' a' w ≠ 0 ∧ transferAt K P b a w = transferAt K' P' b' a' w) :
    SameTransfer K P K' P' b a b' a' := by
  let np : Nat → (Nat → ℂ) → ℂ[X] := fun K b => ∑ j ∈ range K, C (b j) * X ^ j
  let dp : Nat → (Nat → ℂ) → ℂ[X] := fun P a => 1 + ∑ k ∈ range P, C (a k) * X ^ (k + 1)
  have hn : ∀ K b w, (np K b).eval w⁻¹ = ∑ j ∈ range K, b j * w⁻¹ ^ j := by
    intro K b w; simp only [np, eval_finsetSum, eval_mul, eval_C, eval_pow, eval_X]
  have hd : ∀ P a w, (dp P a).eval w⁻¹ = denAt P a w := by
    intro P a w; simp only [dp, eval_add, eval_one, eval_finsetSum, eval_mul, eval_C, eval_pow, eval_X, denAt]
  have hn' : ∀ K b, ((np K b : ℂ[X]) : PowerSeries ℂ) = PowerSeries.mk (zext K b) := by
    intro K b
    ext n
    simp only [np, coeff_coe, finsetSum_coeff, coeff_C_mul, coeff_X_pow, PowerSeries.coeff_mk, zext, mul_ite, mul_one, mul_zero,
      Finset.sum_ite_eq, mem_range]
  have hd' : ∀ P a, ((dp P a : ℂ[X]) : PowerSeries ℂ) = PowerSeries.mk (denom P a) := by
    intro P a
    ext n
    simp only [dp, coeff_coe, coeff_add, coeff_one, finsetSum_coeff, coeff_C_mul, coeff_X_pow, PowerSeries.coeff_mk, mul_ite, mul_one,
      mul_zero, denom]
    cases n with
    | zero => simp
    | succ n => simp [Finset.sum_ite_eq]
  have e : np K b * dp P' a' = np K' b' * dp P a := by
    refine eq_of_infinite_eval_eq _ _ ((hS.image inv_injective.injOn).mono ?_)
    rintro _ ⟨w, hw, rfl⟩
    obtain ⟨h0, h1, h2, h3⟩ := h w hw
    rw [Set.mem_ofPred_eq, eval_mul, eval_mul, hn, hn, hd, hd]
    rw [transferAt, transferAt, div_eq_div_iff h1 h2] at h3
    exact h3
  refine mk_inj ?_
  rw [mk_conv, mk_conv, ← hn', ← hn', ← hd', ← hd', ← Polynomial.coe_mul, ← Polynomial.coe_mul, e]

end Spec
