import Verif.Proof.Stability
import Verif.Proof.ClosedForm
import Mathlib.Analysis.Normed.Algebra.GelfandFormula
import Mathlib.Analysis.Matrix.Normed
import Mathlib.LinearAlgebra.Matrix.Charpoly.Eigs

/-! # Bounds on states -/

namespace Spec
open Torch Finset Matrix

theorem scalarRec_bound {𝕜 : Type} [NormedField 𝕜] {a : Nat → 𝕜} {z : 𝕜} {x : Nat → 𝕜} {r X : ℝ} (hr : r < 1) (ha : ∀ t, ‖a t‖ ≤ r)
    (hx : ∀ t, ‖x t‖ ≤ X) (t : Nat) : ‖scalarRec a z x t‖ ≤ r ^ t * ‖z‖ + (1 - r)⁻¹ * X := by
  have h1 : 0 < 1 - r := by linarith
  have hr0 : 0 ≤ r := (norm_nonneg _).trans (ha 0)
  have hX : 0 ≤ X := (norm_nonneg _).trans (hx 0)
  induction t with
  | zero =>
    have : 0 ≤ (1 - r)⁻¹ * X := by positivity
    rw [scalarRec, pow_zero, one_mul]; linarith
  | succ t ih =>
    rw [scalarRec]
    have hk : r * ((1 - r)⁻¹ * X) + X = (1 - r)⁻¹ * X := by field_simp; ring
    have := mul_le_mul (ha t) ih (norm_nonneg _) hr0
    calc ‖a t * scalarRec a z x t + x t‖ ≤ ‖a t‖ * ‖scalarRec a z x t‖ + ‖x t‖ := by
          rw [← norm_mul]; exact norm_add_le _ _
      _ ≤ r * (r ^ t * ‖z‖ + (1 - r)⁻¹ * X) + X := add_le_add this (hx t)
      _ = r ^ (t + 1) * ‖z‖ + (1 - r)⁻¹ * X := by rw [pow_succ]; linear_combination hk

/-- Two solutions from different initial values approach each other. -/
theorem scalarRec_forget {𝕜 : Type} [NormedField 𝕜] {a : Nat → 𝕜} {z z' : 𝕜} {x : Nat → 𝕜} {r : ℝ} (ha : ∀ t, ‖a t‖ ≤ r)
    (t : Nat) : ‖scalarRec a z x t - scalarRec a z' x t‖ ≤ r ^ t * ‖z - z'‖ := by
  have hr0 : 0 ≤ r := (norm_nonneg _).trans (ha 0)
  induction t with
  | zero => rw [scalarRec, scalarRec, pow_zero, one_mul]
  | succ t ih =>
    rw [scalarRec, scalarRec, add_sub_add_right_eq_sub, ← mul_sub, norm_mul, pow_succ', mul_assoc]
    exact mul_le_mul (ha t) ih (norm_nonneg _) hr0

attribute [local instance] Matrix.linftyOpNormedRing Matrix.linftyOpNormedAlgebra

/-- The powers of a matrix with eigenvalues inside the unit circle decay. -/
theorem pow_decay {M : Nat} (A : Matrix (Fin M) (Fin M) ℂ) (h : ∀ l, A.charpoly.IsRoot l → ‖l‖ < 1) :
    ∃ G r : ℝ, 0 ≤ G ∧ 0 ≤ r ∧ r < 1 ∧ ∀ n, ‖A ^ n‖ ≤ G * r ^ n := by
  rcases Nat.eq_zero_or_pos M with rfl | hM
  · exact ⟨0, 0, le_rfl, le_rfl, one_pos, fun n => by rw [Subsingleton.elim (A ^ n) 0, norm_zero, zero_mul]⟩
  have : Nonempty (Fin M) := ⟨⟨0, hM⟩⟩
  have : CompleteSpace (Matrix (Fin M) (Fin M) ℂ) := FiniteDimensional.complete ℂ _
  have h1 : spectralRadius ℂ A < ((1 : NNReal) : ENNReal) := spectrum.spectralRadius_lt_of_forall_lt A fun z hz => by
    have := h z (Matrix.mem_spectrum_iff_isRoot_charpoly.1 hz)
    exact_mod_cast this
  obtain ⟨r, hr, hr1⟩ := ENNReal.lt_iff_exists_nnreal_btwn.1 h1
  have hr1 : r < 1 := by exact_mod_cast hr1
  have hr0 : 0 < r := by exact_mod_cast (zero_le (a := spectralRadius ℂ A)).trans_lt hr
  have ev := (spectrum.pow_nnnorm_pow_one_div_tendsto_nhds_spectralRadius A).eventually_lt_const hr
  obtain ⟨n0, hn0⟩ := Filter.eventually_atTop.1 ev
  have big : ∀ n, n0 + 1 ≤ n → ‖A ^ n‖ ≤ (r : ℝ) ^ n := by
    intro n hn
    have k := hn0 n (by omega)
    have hn' : (n : ℝ) ≠ 0 := by exact_mod_cast (by omega : n ≠ 0)
    have k2 := ENNReal.rpow_le_rpow k.le (Nat.cast_nonneg n : (0 : ℝ) ≤ n)
    rw [← ENNReal.rpow_mul, one_div, inv_mul_cancel₀ hn', ENNReal.rpow_one, ENNReal.rpow_natCast] at k2
    have k3 : ‖A ^ n‖₊ ≤ r ^ n := by exact_mod_cast k2
    exact_mod_cast k3
  have hr0' : (0 : ℝ) < r := by exact_mod_cast hr0
  refine ⟨1 + ∑ n ∈ range (n0 + 1), ‖A ^ n‖ / (r : ℝ) ^ n, r, ?_, hr0'.le, by exact_mod_cast hr1, fun n => ?_⟩
  · exact add_nonneg zero_le_one (sum_nonneg fun n _ => by positivity)
  · have hs : 0 ≤ ∑ n ∈ range (n0 + 1), ‖A ^ n‖ / (r : ℝ) ^ n := sum_nonneg fun n _ => by positivity
    have hp : (0 : ℝ) < (r : ℝ) ^ n := pow_pos hr0' n
    rcases Nat.lt_or_ge n (n0 + 1) with hn | hn
    · have := single_le_sum (f := fun n => ‖A ^ n‖ / (r : ℝ) ^ n) (fun n _ => by positivity) (mem_range.2 hn)
      rw [← div_le_iff₀ hp]
      linarith
    · refine (big n hn).trans ?_
      nlinarith

/-- States of a system with eigenvalues inside the unit circle stay bounded and forget where they started. -/
theorem vecRec_decay {M : Nat} (A : Nat → Nat → ℂ) (h : ∀ l, (mat M M A).charpoly.IsRoot l → ‖l‖ < 1) :
    ∃ G r : ℝ, 0 ≤ G ∧ 0 ≤ r ∧ r < 1 ∧ ∀ (z : Nat → ℂ) (v : Nat → Nat → ℂ) (Z V : ℝ), (∀ m, m < M → ‖z m‖ ≤ Z) →
      (∀ t m, m < M → ‖v t m‖ ≤ V) → 0 ≤ Z → 0 ≤ V → ∀ t m, m < M →
        ‖vecRec M (fun _ => A) z v t m‖ ≤ G * (r ^ t * Z + (1 - r)⁻¹ * V) := by
  obtain ⟨G, r, hG, hr, hr1, hp⟩ := pow_decay (mat M M A) h
  refine ⟨G, r, hG, hr, hr1, fun z v Z V hz hv hZ hV t m hm => ?_⟩
  have hz' : ‖vect M z‖ ≤ Z := (pi_norm_le_iff_of_nonneg hZ).2 fun i => hz i i.2
  have hv' : ∀ k, ‖vect M (v k)‖ ≤ V := fun k => (pi_norm_le_iff_of_nonneg hV).2 fun i => hv k i i.2
  have e := vecRec_closed (M := M) A z v t
  have k1 : ‖vecRec M (fun _ => A) z v t m‖ ≤ ‖vect M (vecRec M (fun _ => A) z v t)‖ :=
    norm_le_pi_norm (vect M (vecRec M (fun _ => A) z v t)) ⟨m, hm⟩
  refine k1.trans ?_
  rw [e]
  have b1 : ‖mat M M A ^ t *ᵥ vect M z‖ ≤ G * r ^ t * Z :=
    (Matrix.linfty_opNorm_mulVec _ _).trans (mul_le_mul (hp t) hz' (norm_nonneg _) (by positivity))
  have b2 : ‖∑ k ∈ range t, mat M M A ^ (t - 1 - k) *ᵥ vect M (v k)‖ ≤ ∑ k ∈ range t, G * r ^ (t - 1 - k) * V :=
    (norm_sum_le _ _).trans (sum_le_sum fun k _ =>
      (Matrix.linfty_opNorm_mulVec _ _).trans (mul_le_mul (hp _) (hv' k) (norm_nonneg _) (by positivity)))
  have b3 : ∑ k ∈ range t, G * r ^ (t - 1 - k) * V ≤ G * ((1 - r)⁻¹ * V) := by
    rw [sum_range_reflect (fun k => G * r ^ k * V) t, ← sum_mul, ← mul_sum, mul_assoc]
    refine mul_le_mul_of_nonneg_left (mul_le_mul_of_nonneg_right ?_ hV) hG
    rw [← tsum_geometric_of_lt_one hr hr1]
    exact (summable_geometric_of_lt_one hr hr1).sum_le_tsum _ fun _ _ => by positivity
  calc _ ≤ G * r ^ t * Z + G * ((1 - r)⁻¹ * V) := (norm_add_le _ _).trans (add_le_add b1 (b2.trans b3))
    _ = _ := by ring

/-- Started in an eigenvector, the system stays on it. -/
theorem vecRec_eigen {M : Nat} (A : Nat → Nat → ℂ) {l : ℂ} (h : (mat M M A).charpoly.IsRoot l) :
    ∃ z : Nat → ℂ, (∃ m, m < M ∧ z m ≠ 0) ∧ ∀ t m, m < M → vecRec M (fun _ => A) z (fun _ _ => 0) t m = l ^ t * z m := by
  rw [Polynomial.IsRoot, Matrix.eval_charpoly] at h
  obtain ⟨v, hv, e⟩ := Matrix.exists_mulVec_eq_zero_iff.2 h
  have e' : mat M M A *ᵥ v = l • v := by
    rw [sub_mulVec, sub_eq_zero, scalar_apply, ← smul_one_eq_diagonal, smul_mulVec, one_mulVec] at e
    exact e.symm
  obtain ⟨i, hi⟩ := Function.ne_iff.1 hv
  let z : Nat → ℂ := fun m => if hm : m < M then v ⟨m, hm⟩ else 0
  have hz : vect M z = v := by funext m; simp [vect, z]
  refine ⟨z, ⟨i, i.2, by simpa [z] using hi⟩, fun t m hm => ?_⟩
  have p : ∀ t, mat M M A ^ t *ᵥ v = l ^ t • v := by
    intro t
    induction t with
    | zero => simp
    | succ t ih => rw [pow_succ', ← mulVec_mulVec, ih, mulVec_smul, e', smul_smul, pow_succ]
  have k := congrFun (vecRec_closed (M := M) A z (fun _ _ => 0) t) ⟨m, hm⟩
  rw [hz, p, show vect M (fun _ => (0 : ℂ)) = 0 from rfl] at k
  simp only [mulVec_zero, sum_const_zero, add_zero] at k
  exact k.trans (by rw [Pi.smul_apply, smul_eq_mul]; simp [z, hm])

/-- The comb recursion stays bounded. -/
theorem comb_bound {𝕜 : Type} [NormedField 𝕜] {D : Nat} {a : 𝕜} {x : Nat → 𝕜} {y : Int → 𝕜} {r X : ℝ} (hD : 1 ≤ D) (hr : r < 1)
    (ha : ‖a‖ ≤ r) (hx : ∀ t, ‖x t‖ ≤ X) (h0 : ∀ n, n < 0 → y n = 0) (h : ∀ n : Nat, y n = x n - a * y (n - D)) (n : Nat) :
    ‖y n‖ ≤ (1 - r)⁻¹ * X := by
  have h1 : 0 < 1 - r := by linarith
  have hX : 0 ≤ X := (norm_nonneg _).trans (hx 0)
  have hr0 : 0 ≤ r := (norm_nonneg _).trans ha
  have hk : X + r * ((1 - r)⁻¹ * X) = (1 - r)⁻¹ * X := by field_simp; ring
  induction n using Nat.strong_induction_on with
  | _ n ih =>
    have hy : ‖y (n - D)‖ ≤ (1 - r)⁻¹ * X := by
      rcases Nat.lt_or_ge n D with hn | hn
      · rw [h0 _ (by omega), norm_zero]; positivity
      · have := ih (n - D) (by omega)
        rwa [Nat.cast_sub hn] at this
    rw [h n, ← hk]
    refine (norm_sub_le _ _).trans (add_le_add (hx n) ?_)
    rw [norm_mul]
    exact mul_le_mul ha hy (norm_nonneg _) hr0

/-- The same with a past. -/
theorem comb_bound_past {𝕜 : Type} [NormedField 𝕜] {D : Nat} {a : 𝕜} {x : Nat → 𝕜} {y : Int → 𝕜} {r X Z : ℝ} (hD : 1 ≤ D) (hr : r < 1)
    (ha : ‖a‖ ≤ r) (hx : ∀ t, ‖x t‖ ≤ X) (h0 : ∀ m : Nat, m < D → ‖y (-1 - m)‖ ≤ Z) (h : ∀ n : Nat, y n = x n - a * y (n - D)) (n : Nat) :
    ‖y n‖ ≤ max Z ((1 - r)⁻¹ * X) := by
  have h1 : 0 < 1 - r := by linarith
  have hr0 : 0 ≤ r := (norm_nonneg _).trans ha
  have hk : X + r * max Z ((1 - r)⁻¹ * X) ≤ max Z ((1 - r)⁻¹ * X) := by
    have : X ≤ (1 - r) * max Z ((1 - r)⁻¹ * X) := by
      calc X = (1 - r) * ((1 - r)⁻¹ * X) := by field_simp
        _ ≤ _ := mul_le_mul_of_nonneg_left (le_max_right _ _) h1.le
    linarith
  induction n using Nat.strong_induction_on with
  | _ n ih =>
    have hy : ‖y (n - D)‖ ≤ max Z ((1 - r)⁻¹ * X) := by
      rcases Nat.lt_or_ge n D with hn | hn
      · rw [show (n : Int) - D = -1 - ((D - 1 - n : Nat) : Int) by omega]
        exact (h0 _ (by omega)).trans (le_max_left _ _)
      · have := ih (n - D) (by omega)
        rwa [Nat.cast_sub hn] at this
    rw [h n]
    refine le_trans ((norm_sub_le _ _).trans (add_le_add (hx n) ?_)) hk
    rw [norm_mul]
    exact mul_le_mul ha hy (norm_nonneg _) hr0

/-- Taps applied to a bounded signal. -/
theorem taps_bound {𝕜 : Type} [NormedField 𝕜] {K : Nat} {b : Nat → 𝕜} {v : Int → 𝕜} {X : ℝ} {n : Int}
    (h : ∀ j : Nat, j < K → ‖v (n - j)‖ ≤ X) : ‖taps K b v n‖ ≤ (∑ j ∈ Finset.range K, ‖b j‖) * X := by
  rw [taps, Finset.sum_mul]
  refine (norm_sum_le _ _).trans (Finset.sum_le_sum fun j hj => ?_)
  rw [norm_mul]
  exact mul_le_mul_of_nonneg_left (h j (Finset.mem_range.1 hj)) (norm_nonneg _)

/-- A real recursion is the complex one with the same numbers. -/
theorem vecRec_ofReal {M : Nat} (A : Nat → Nat → Nat → ℝ) (z : Nat → ℝ) (v : Nat → Nat → ℝ) (t m : Nat) :
    ((vecRec M A z v t m : ℝ) : ℂ) =
      vecRec M (fun t i j => (A t i j : ℂ)) (fun m => (z m : ℂ)) (fun t m => (v t m : ℂ)) t m := by
  induction t generalizing m with
  | zero => rfl
  | succ t ih =>
    simp only [vecRec]
    push_cast
    simp only [ih]

theorem series_ofReal {K P : Nat} {b a x y : Nat → ℝ}
    (h : PowerSeries.mk (denom P a) * PowerSeries.mk y = PowerSeries.mk (zext K b) * PowerSeries.mk x) :
    PowerSeries.mk (denom P fun k => (a k : ℂ)) * PowerSeries.mk (fun n => (y n : ℂ)) =
      PowerSeries.mk (zext K fun k => (b k : ℂ)) * PowerSeries.mk (fun n => (x n : ℂ)) := by
  have m : ∀ f : Nat → ℝ, PowerSeries.map Complex.ofRealHom (PowerSeries.mk f) = PowerSeries.mk fun n => (f n : ℂ) := by
    intro f; ext n; simp
  have e := congrArg (PowerSeries.map Complex.ofRealHom) h
  rw [map_mul, map_mul, m, m, m, m] at e
  rw [show (denom P fun k => (a k : ℂ)) = fun n => ((denom P a n : ℝ) : ℂ) by
      funext n; unfold denom; split_ifs <;> simp,
    show (zext K fun k => (b k : ℂ)) = fun n => ((zext K b n : ℝ) : ℂ) by
      funext n; unfold zext; split_ifs <;> simp]
  exact e

/-- Conjugated coefficients have conjugated poles. -/
theorem poles_conj (P : Nat) (a : Nat → ℂ) {g : ℂ → ℂ} (hg : g = id ∨ g = star) :
    poles P (fun k => g (a k)) = (poles P a).map g := by
  rcases hg with rfl | rfl
  · rw [Multiset.map_id]; rfl
  · have h : denPoly P (fun k => star (a k)) = (denPoly P a).map (starRingEnd ℂ) := by
      unfold denPoly
      simp [Polynomial.map_sum]
    unfold poles
    rw [h, (IsAlgClosed.splits (denPoly P a)).roots_map]
    rfl

end Spec
