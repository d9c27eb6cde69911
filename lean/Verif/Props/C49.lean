import Verif.Proof.ProtoDiv
import Verif.Proof.ProtoRoots
import Verif.Torch.Fails
import Mathlib.Analysis.Complex.Polynomial.Basic

/-!
# C49: polynomial division and roots of the prototype
-/

namespace Props
open Torch Spec Polynomial Phil.Proto
variable {α : Type} [Field α] [DecidableEq α]

/-- **C49 (partial), division**: the dividend is quotient times divisor plus a remainder of smaller degree; the remainder returned lacks
leading coefficients `d`, all of which the code takes for small.  Missing: that these are zero (see `C49_polydiv_drops`). -/
theorem C49_polydiv_partial (small : α → Bool) (h0 : small 0 = true) (u v : List α) (hv : listPoly v ≠ 0) :
    ∃ d : List α, (∀ e ∈ d, small e = true) ∧
      listPoly u = listPoly (polydiv small u v).1 * listPoly v + listPoly (d ++ (polydiv small u v).2) ∧
      (listPoly (d ++ (polydiv small u v).2)).degree < (listPoly v).degree ∧ (polydiv small u v).2 ≠ [] :=
  polydiv_spec small h0 u v hv

example := C49_polydiv_partial (fun e => decide (|e| < (1 / 10 ^ 8 : ℚ))) (by decide +kernel) [1, 0, -2, 5] [1, -3]
  (by rw [listPoly_cons, listPoly_singleton]; simp only [List.length_cons, List.length_nil]; exact ne_zero_of_natDegree_gt (n := 0) (by
    rw [show natDegree (C (1 : ℚ) * X ^ (0 + 1) + C (-3)) = 1 by compute_degree!]; decide))

/-- **C49 (partial), division**: with an exact comparison with zero, quotient and remainder are those of `Polynomial`. -/
theorem C49_polydiv_exact_partial (small : α → Bool) (hs : ∀ e, small e = true ↔ e = 0) (u v : List α) (hv : listPoly v ≠ 0) :
    listPoly (polydiv small u v).1 = listPoly u / listPoly v ∧ listPoly (polydiv small u v).2 = listPoly u % listPoly v := by
  obtain ⟨h1, h2, _⟩ := polydiv_exact small hs u v hv
  have hu := div_modByMonic_unique (f := listPoly u) (g := listPoly v * C (listPoly v).leadingCoeff⁻¹)
    (C (listPoly v).leadingCoeff * listPoly (polydiv small u v).1) (listPoly (polydiv small u v).2)
    (monic_mul_leadingCoeff_inv hv) ⟨by
      have hc : C (listPoly v).leadingCoeff⁻¹ * C (listPoly v).leadingCoeff = (1 : α[X]) := by
        rw [← C_mul, inv_mul_cancel₀ (leadingCoeff_ne_zero.2 hv), C_1]
      rw [h1]
      linear_combination (listPoly v * listPoly (polydiv small u v).1) * hc, by
      rwa [degree_mul_leadingCoeff_inv _ hv]⟩
  refine ⟨?_, ?_⟩
  · rw [div_def, hu.1, ← mul_assoc, ← C_mul, inv_mul_cancel₀ (leadingCoeff_ne_zero.2 hv), C_1, one_mul]
  · rw [mod_def, hu.2]

example := C49_polydiv_exact_partial (fun e => decide (e = (0 : ℚ))) (by simp) [1, 0, -2, 5] [1, -3]
  (by rw [listPoly_cons, listPoly_singleton]; simp only [List.length_cons, List.length_nil]; exact ne_zero_of_natDegree_gt (n := 0) (by
    rw [show natDegree (C (1 : ℚ) * X ^ (0 + 1) + C (-3)) = 1 by compute_degree!]; decide))

/-- The comparison with `1e-8` loses coefficients: `10⁻⁹ X + 1` divided by `X²` leaves the remainder `1`, and the dividend cannot be
recovered. -/
theorem C49_polydiv_drops :
    polydiv (fun e => decide (|e| < (1 / 10 ^ 8 : ℚ))) [1 / 10 ^ 9, 1] [1, 0, 0] = ([0], [1]) ∧
      listPoly [(1 / 10 ^ 9 : ℚ), 1] ≠ listPoly [0] * listPoly [1, 0, 0] + listPoly [1] := by
  refine ⟨by decide +kernel, fun h => ?_⟩
  have := congrArg (fun p => p.coeff 1) h
  simp only [listPoly_singleton, C_0, zero_mul, zero_add] at this
  rw [coeff_listPoly, coeff_C] at this
  simp at this

/-- **C49 (partial), roots**: a polynomial with at least two non-zero coefficients is its leading coefficient times the product of
`X - z` over the roots returned.  Missing: monomials (see `C49_roots_monomial`). -/
theorem C49_roots_partial {eigvals : Nat → (Nat → Nat → α) → List α} (hE : IsEigvals eigvals) {p : List α} {i j : Nat} (hij : i < j)
    (hj : j < p.length) (hi0 : p.getD i 0 ≠ 0) (hj0 : p.getD j 0 ≠ 0) :
    ∃ r, roots eigvals p = .ok r ∧ listPoly p = C (listPoly p).leadingCoeff * (r.map fun z => X - C z).prod ∧
      r.length = (listPoly p).natDegree := by
  have hi := (mem_nonzero p i).2 ⟨by omega, hi0⟩
  have hj' := (mem_nonzero p j).2 ⟨hj, hj0⟩
  match hl : nonzero p with
  | [] => rw [hl] at hi; cases hi
  | [a] =>
    rw [hl] at hi hj'
    have := List.mem_singleton.1 hi
    have := List.mem_singleton.1 hj'
    omega
  | a :: b :: l =>
    obtain ⟨r, h1, h2⟩ := roots_spec hE hl
    have hmon : (r.map fun z => X - C z).prod.Monic := (prod_X_sub r).1
    have hne := (nonzero_head hl).2.1
    have hlead : (listPoly p).leadingCoeff = p.getD a 0 := by
      rw [h2, leadingCoeff_mul, hmon.leadingCoeff, leadingCoeff_C, mul_one]
    refine ⟨r, h1, by rw [hlead]; exact h2, ?_⟩
    rw [h2, natDegree_C_mul hne, (prod_X_sub r).2]

/-- The zero polynomial has no roots listed. -/
theorem C49_roots_zero (eigvals : Nat → (Nat → Nat → α) → List α) (p : List α) (h : ∀ i < p.length, p.getD i 0 = 0) :
    roots eigvals p = .ok [] := by
  have : nonzero p = [] := List.eq_nil_iff_forall_not_mem.2 fun i hi => ((mem_nonzero p i).1 hi).2 (h i ((mem_nonzero p i).1 hi).1)
  unfold Phil.Proto.roots
  rw [this]

example (eigvals : Nat → (Nat → Nat → ℚ) → List ℚ) := C49_roots_zero eigvals [0, 0, 0] (by decide)

/-- A polynomial with exactly one non-zero coefficient, such as a constant or `X²`, raises. -/
theorem C49_roots_monomial (eigvals : Nat → (Nat → Nat → α) → List α) (p : List α) (i : Nat) (hi : i < p.length)
    (h : ∀ k < p.length, p.getD k 0 ≠ 0 ↔ k = i) : Fails (roots eigvals p) := by
  have hm : ∀ k, k ∈ nonzero p ↔ k = i := fun k => by
    rw [mem_nonzero]
    exact ⟨fun hk => (h k hk.1).1 hk.2, fun hk => hk ▸ ⟨hi, (h i hi).2 rfl⟩⟩
  match hl : nonzero p with
  | [] => rw [hl] at hm; exact absurd ((hm i).2 rfl) (by simp)
  | [a] =>
    unfold Phil.Proto.roots
    rw [hl]
    exact fails_of_isOk rfl
  | a :: b :: l =>
    have hs := nonzero_sorted p
    rw [hl] at hs hm
    have h1 := (hm a).1 (by simp)
    have h2 := (hm b).1 (by simp)
    have := (List.pairwise_cons.1 hs).1 b (by simp)
    omega

/-- Non-vacuity: over the complex numbers an eigenvalue solver as assumed exists. -/
example : ∃ eigvals : Nat → (Nat → Nat → ℂ) → List ℂ, IsEigvals eigvals := by
  refine ⟨fun N A => (Matrix.of fun i j : Fin N => A i j).charpoly.roots.toList, fun N A => ?_⟩
  have h := (IsAlgClosed.splits (Matrix.of fun i j : Fin N => A i j).charpoly).eq_prod_roots_of_monic (Matrix.charpoly_monic _)
  conv_lhs => rw [h]
  conv_lhs => rw [← Multiset.coe_toList (Matrix.charpoly _).roots]
  rw [Multiset.map_coe, Multiset.prod_coe]

/-- Non-vacuity: `X³ - 2X + 5` divided by `2X² + 1`. -/
example : polydiv (fun e => decide (|e| < (1 / 10 ^ 8 : ℚ))) [1, 0, -2, 5] [0, 2, 0, 1] = ([1 / 2, 0], [-5 / 2, 5]) := by decide +kernel

/-- Non-vacuity of `C49_roots_monomial`: `X²`. -/
example (eigvals : Nat → (Nat → Nat → ℚ) → List ℚ) : Fails (roots eigvals [1, 0, 0]) :=
  C49_roots_monomial eigvals _ 0 (by decide) (by decide)

/-- Non-vacuity of `C49_roots_partial`: `X³ - 3X² + 2X`. -/
example {eigvals : Nat → (Nat → Nat → ℂ) → List ℂ} (hE : IsEigvals eigvals) :
    ∃ r, roots eigvals [1, -3, 2, 0] = .ok r ∧ r.length = (listPoly [(1 : ℂ), -3, 2, 0]).natDegree := by
  obtain ⟨r, h1, _, h3⟩ := C49_roots_partial hE (p := [1, -3, 2, 0]) (i := 0) (j := 1) (by decide) (by decide) (by simp) (by simp)
  exact ⟨r, h1, h3⟩

end Props
