import Verif.Model.ProtoSos
import Verif.Proof.ProtoResidueMain
import Mathlib.Algebra.Polynomial.Taylor
import Mathlib.Algebra.Polynomial.FieldDivision
import Mathlib.Algebra.Polynomial.Lifts

/-! # Residues by repeated derivatives, philtorch/prototype/signal.py:283-294 -/

namespace Phil.Proto
open Torch Spec Polynomial
variable {α : Type} [Field α]

theorem derivative_hasse (i : Nat) (g : α[X]) : derivative (hasseDeriv i g) = C ((i + 1 : Nat) : α) * hasseDeriv (i + 1) g := by
  have h := LinearMap.congr_fun (hasseDeriv_comp (R := α) 1 i) g
  rw [LinearMap.comp_apply, hasseDeriv_one, LinearMap.smul_apply, Nat.choose_one_right, add_comm 1 i] at h
  rw [h, nsmul_eq_mul, map_natCast]

theorem eval_of_dvd {p : α} {M : Nat} {a b : α[X]} (h : (X - C p) ^ (M + 1) ∣ a - b) : a.eval p = b.eval p := by
  obtain ⟨q, hq⟩ := h
  have := congrArg (eval p) hq
  rw [eval_sub, eval_mul, eval_pow, eval_sub, eval_X, eval_C, sub_self, pow_succ, mul_zero, zero_mul, sub_eq_zero] at this
  exact this

/-- One step: agreement to order `M + 1` gives agreement of the derivatives to order `M`. -/
theorem quotient_step (p : α) (n d g : α[X]) (i M : Nat) (h : (X - C p) ^ (M + 1) ∣ n - hasseDeriv i g * d) :
    (X - C p) ^ M ∣ (derivative n * d - n * derivative d) - hasseDeriv (i + 1) g * (C ((i + 1 : Nat) : α) * (d * d)) := by
  obtain ⟨q, hq⟩ := h
  have hn : n = hasseDeriv i g * d + (X - C p) ^ (M + 1) * q := by linear_combination hq
  have hn' : derivative n = C ((i + 1 : Nat) : α) * hasseDeriv (i + 1) g * d + hasseDeriv i g * derivative d +
      (X - C p) ^ M * (C ((M + 1 : Nat) : α) * q + (X - C p) * derivative q) := by
    rw [hn, derivative_add, derivative_mul, derivative_mul, derivative_hasse, derivative_X_sub_C_pow, Nat.add_sub_cancel, pow_succ]
    ring
  refine ⟨(C ((M + 1 : Nat) : α) * q + (X - C p) * derivative q) * d - (X - C p) * q * derivative d, ?_⟩
  rw [hn']
  conv_lhs => rw [hn]
  ring

/-- Degrees along the way. -/
theorem quotient_degree [CharZero α] (n d : α[X]) (M : Nat) (hd : d ≠ 0) (h : n.natDegree = d.natDegree + (M + 1)) :
    (derivative n * d - n * derivative d).natDegree = 2 * d.natDegree + M := by
  have hn : n ≠ 0 := by
    rintro rfl
    rw [natDegree_zero] at h
    omega
  have hcoeff : (derivative n * d - n * derivative d).coeff (2 * d.natDegree + M) = ((M + 1 : Nat) : α) * (n.leadingCoeff * d.leadingCoeff) := by
    rw [coeff_sub]
    have e1 : (derivative n * d).coeff (2 * d.natDegree + M) = (n.natDegree : α) * n.leadingCoeff * d.leadingCoeff := by
      have : 2 * d.natDegree + M = (n.natDegree - 1) + d.natDegree := by omega
      rw [this, coeff_mul_add_eq_of_natDegree_le (natDegree_derivative_le n) le_rfl, coeff_derivative,
        show n.natDegree - 1 + 1 = n.natDegree by omega, leadingCoeff, leadingCoeff]
      have : ((n.natDegree - 1 : Nat) : α) + 1 = (n.natDegree : α) := by
        rw [← Nat.cast_succ]; congr 1; omega
      rw [this]; ring
    have e2 : (n * derivative d).coeff (2 * d.natDegree + M) = (d.natDegree : α) * n.leadingCoeff * d.leadingCoeff := by
      by_cases h0 : d.natDegree = 0
      · have : derivative d = 0 := by rw [eq_C_of_natDegree_eq_zero h0, derivative_C]
        rw [this, h0]; simp
      · have : 2 * d.natDegree + M = n.natDegree + (d.natDegree - 1) := by omega
        rw [this, coeff_mul_add_eq_of_natDegree_le le_rfl (natDegree_derivative_le d), coeff_derivative,
          show d.natDegree - 1 + 1 = d.natDegree by omega, leadingCoeff, leadingCoeff]
        have : ((d.natDegree - 1 : Nat) : α) + 1 = (d.natDegree : α) := by
          rw [← Nat.cast_succ]; congr 1; omega
        rw [this]; ring
    rw [e1, e2, h]
    push_cast
    ring
  refine natDegree_eq_of_le_of_coeff_ne_zero ?_ ?_
  · refine (natDegree_sub_le _ _).trans (max_le ?_ ?_)
    · refine natDegree_mul_le.trans ?_
      have := natDegree_derivative_le n
      omega
    · by_cases h0 : d.natDegree = 0
      · have : derivative d = 0 := by rw [eq_C_of_natDegree_eq_zero h0, derivative_C]
        rw [this]; simp
      · refine natDegree_mul_le.trans ?_
        have := natDegree_derivative_le d
        omega
  · rw [hcoeff]
    exact mul_ne_zero (Nat.cast_ne_zero.2 (by omega)) (mul_ne_zero (leadingCoeff_ne_zero.2 hn) (leadingCoeff_ne_zero.2 hd))

/-- The shape in which a quotient by a polynomial is returned. -/
def shaped [DecidableEq α] (const : Prop) [Decidable const] (x : α) : Val α := if const then .vec [x] else .scalar x

variable [DecidableEq α]

theorem divVal_shaped (n d : List α) (p : α) (hn : (listPoly n).natDegree ≠ 0) :
    divVal (polyval n (.scalar p)) (polyval d (.scalar p)) =
      shaped ((listPoly d).natDegree = 0) ((listPoly n).eval p / (listPoly d).eval p) := by
  rw [polyval_scalar n p hn]
  unfold shaped
  by_cases h : (listPoly d).natDegree = 0
  · rw [if_pos h, polyval_const d _ h]
    have : (listPoly d).eval p = (listPoly d).coeff 0 := by
      conv_lhs => rw [eq_C_of_natDegree_eq_zero h, eval_C]
    rw [this]; rfl
  · rw [if_neg h, polyval_scalar d p h]; rfl

/-- The values and shapes computed by the loop. -/
theorem derivLoop_spec [CharZero α] (p : α) (g : α[X]) (c : Nat) : ∀ (i : Nat) (n d : List α),
    (listPoly n).natDegree = (listPoly d).natDegree + (c + 1) → (listPoly d).eval p ≠ 0 →
    (X - C p) ^ (c + 1) ∣ listPoly n - hasseDeriv i g * listPoly d →
    derivLoop p c (i + 2) n d =
      (List.range c).map fun k => shaped ((listPoly d).natDegree = 0) ((hasseDeriv (i + 1 + k) g).eval p) := by
  induction c with
  | zero => intro i n d _ _ _; rfl
  | succ c ih =>
    intro i n d hdeg hd hdvd
    have hd0 : listPoly d ≠ 0 := by intro h; rw [h, eval_zero] at hd; exact hd rfl
    have hN : listPoly (polysub (polymul (polyderNat n 1) d) (polymul n (polyderNat d 1))) =
        derivative (listPoly n) * listPoly d - listPoly n * derivative (listPoly d) := by
      rw [(listPoly_polysub _ _).1, listPoly_polymul, listPoly_polymul, listPoly_polyder, listPoly_polyder]; rfl
    have hD : listPoly ((polymul d d).map fun e => e * ((i + 2 - 1 : Nat) : α)) = C ((i + 1 : Nat) : α) * (listPoly d * listPoly d) := by
      have : (fun e : α => e * ((i + 2 - 1 : Nat) : α)) = fun e => ((i + 1 : Nat) : α) * e := by
        funext e; rw [mul_comm]; rfl
      rw [this, listPoly_map_mul, listPoly_polymul]
    have hi : ((i + 1 : Nat) : α) ≠ 0 := Nat.cast_ne_zero.2 (by omega)
    have hdegN := quotient_degree (listPoly n) (listPoly d) (c + 1) hd0 hdeg
    have hdegD : (C ((i + 1 : Nat) : α) * (listPoly d * listPoly d)).natDegree = 2 * (listPoly d).natDegree := by
      rw [natDegree_C_mul hi, natDegree_mul hd0 hd0]; omega
    have hevalD : (C ((i + 1 : Nat) : α) * (listPoly d * listPoly d)).eval p ≠ 0 := by
      rw [eval_mul, eval_C, eval_mul]
      exact mul_ne_zero hi (mul_ne_zero hd hd)
    have hstep := quotient_step p _ _ g i (c + 1) hdvd
    have hval : (derivative (listPoly n) * listPoly d - listPoly n * derivative (listPoly d)).eval p =
        (hasseDeriv (i + 1) g).eval p * (C ((i + 1 : Nat) : α) * (listPoly d * listPoly d)).eval p := by
      rw [eval_of_dvd hstep, eval_mul]
    have hconst : ((C ((i + 1 : Nat) : α) * (listPoly d * listPoly d)).natDegree = 0) ↔ ((listPoly d).natDegree = 0) := by
      rw [hdegD]; omega
    unfold derivLoop
    simp only
    rw [divVal_shaped _ _ _ (by rw [hN, hdegN]; omega),
      ih (i + 1) _ _ (by rw [hN, hD, hdegN, hdegD]) (by rw [hD]; exact hevalD) (by rw [hN, hD]; exact hstep)]
    rw [List.range_succ_eq_map, List.map_cons, List.map_map]
    refine congrArg₂ List.cons ?_ (List.map_congr_left fun k _ => ?_)
    · unfold shaped
      rw [hN, hD, hval, mul_div_assoc, div_self hevalD, mul_one]
      simp only [hconst, Nat.add_zero]
    · unfold shaped
      rw [hD]
      simp only [hconst, Function.comp]
      rw [show i + 1 + 1 + k = i + 1 + Nat.succ k by omega]

omit [DecidableEq α] in
/-- A power series solution to any order. -/
theorem exists_local (p : α) (m : Nat) (n d : α[X]) (hd : d.eval p ≠ 0) : ∃ g : α[X], (X - C p) ^ m ∣ n - g * d := by
  have hco : IsCoprime d ((X - C p) ^ m) := by
    refine IsCoprime.pow_right (IsCoprime.symm ?_)
    exact ((irreducible_X_sub_C p).coprime_iff_not_dvd).2 fun h => hd (dvd_iff_isRoot.1 h)
  obtain ⟨u, v, huv⟩ := hco
  exact ⟨n * u, n * v, by linear_combination -n * huv⟩

omit [DecidableEq α] in
/-- The Taylor polynomial. -/
theorem shiftPoly_taylor (p : α) (m : Nat) (g : α[X]) :
    (X - C p) ^ m ∣ g - shiftPoly p ((List.range m).map fun k => (hasseDeriv k g).eval p) := by
  have h1 : shiftPoly p ((List.range m).map fun k => (hasseDeriv k g).eval p) =
      ∑ k ∈ Finset.range m, C ((taylor p g).coeff k) * (X - C p) ^ k := by
    unfold shiftPoly
    rw [List.length_map, List.length_range]
    refine Finset.sum_congr rfl fun k hk => ?_
    have hk := Finset.mem_range.1 hk
    rw [List.getD_eq_getElem _ _ (by simpa using hk), List.getElem_map, List.getElem_range, taylor_coeff]
  have h2 : g = ∑ k ∈ Finset.range (m + ((taylor p g).natDegree + 1)), C ((taylor p g).coeff k) * (X - C p) ^ k := by
    conv_lhs => rw [← sum_taylor_eq g p]
    exact sum_over_range' _ (fun k => by simp) _ (by omega)
  obtain ⟨t, ht⟩ : ∃ t, t = taylor p g := ⟨_, rfl⟩
  rw [← ht] at h1 h2
  rw [h1, h2, Finset.sum_range_add, add_sub_cancel_left]
  refine Finset.dvd_sum fun k _ => ?_
  exact Dvd.dvd.mul_left (pow_dvd_pow _ (by omega)) _

/-- A block of residues, `philtorch/prototype/signal.py:283-294`. -/
theorem block_of_local [CharZero α] (p : α) (m : Nat) (hm : 0 < m) (n d : List α) (hdeg : (listPoly n).natDegree = (listPoly d).natDegree + m)
    (hd : (listPoly d).eval p ≠ 0) (g : α[X]) (hg : (X - C p) ^ m ∣ listPoly n - g * listPoly d) :
    divVal (polyval n (.scalar p)) (polyval d (.scalar p)) :: derivLoop p (m - 1) 2 n d =
        ((List.range m).map fun k => (hasseDeriv k g).eval p).map (shaped ((listPoly d).natDegree = 0)) ∧
      ∃ Q, listPoly n = listPoly d * shiftPoly p ((List.range m).map fun k => (hasseDeriv k g).eval p) + Q * (X - C p) ^ m := by
  refine ⟨?_, ?_⟩
  · obtain ⟨c, rfl⟩ : ∃ c, m = c + 1 := ⟨m - 1, by omega⟩
    rw [Nat.add_sub_cancel, derivLoop_spec p g c 0 n d hdeg hd (by rwa [hasseDeriv_zero']), divVal_shaped _ _ _ (by omega),
      List.range_succ_eq_map, List.map_cons, List.map_cons, List.map_map, List.map_map]
    refine congrArg₂ List.cons ?_ (List.map_congr_left fun k _ => ?_)
    · congr 1
      rw [hasseDeriv_zero', div_eq_iff hd]
      rw [eval_of_dvd hg, eval_mul]
    · simp only [Function.comp]
      rw [show 0 + 1 + k = Nat.succ k by omega]
  · obtain ⟨q1, h1⟩ := hg
    obtain ⟨q2, h2⟩ := shiftPoly_taylor p m g
    exact ⟨q1 + q2 * listPoly d, by linear_combination h1 + listPoly d * h2⟩

/-- The residues lie in the field of the coefficients. -/
theorem block_spec [CharZero α] {K : Type} [Field K] (φ : K →+* α) (p : α) (hp : p ∈ Set.range φ) (m : Nat) (hm : 0 < m) (n d : List α)
    (hn : listPoly n ∈ lifts φ) (hdl : listPoly d ∈ lifts φ) (hdeg : (listPoly n).natDegree = (listPoly d).natDegree + m)
    (hd : (listPoly d).eval p ≠ 0) :
    ∃ R : List α, R.length = m ∧ (∀ r ∈ R, r ∈ Set.range φ) ∧
      divVal (polyval n (.scalar p)) (polyval d (.scalar p)) :: derivLoop p (m - 1) 2 n d =
        R.map (shaped ((listPoly d).natDegree = 0)) ∧
      ∃ Q, listPoly n = listPoly d * shiftPoly p R + Q * (X - C p) ^ m := by
  obtain ⟨p0, rfl⟩ := hp
  obtain ⟨n0, hn0⟩ := (mem_lifts _).1 hn
  obtain ⟨d0, hd0⟩ := (mem_lifts _).1 hdl
  obtain ⟨g0, hg0⟩ := exists_local p0 m n0 d0 (by
    intro h
    apply hd
    rw [← hd0, eval_map_apply, h, map_zero])
  obtain ⟨h1, h2⟩ := block_of_local (φ p0) m hm n d hdeg hd (g0.map φ) (by
    have := (mapRingHom φ).map_dvd hg0
    simpa [hn0, hd0] using this)
  refine ⟨_, by simp, ?_, h1, h2⟩
  intro r hr
  obtain ⟨k, _, rfl⟩ := List.mem_map.1 hr
  rw [← taylor_coeff, ← map_taylor, coeff_map]
  exact ⟨_, rfl⟩

end Phil.Proto
