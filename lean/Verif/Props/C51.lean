import Verif.Proof.ProtoOrdered
import Verif.Proof.ProtoUniqueSum
import Verif.Props.C49

/-!
# C51: `residue`, partial fractions of b(s) / a(s)
-/

namespace Props
open Torch Polynomial Phil.Proto Spec
variable {α : Type} [Field α] [DecidableEq α]

/-- The residues are one-dimensional exactly when this holds of numerator and denominator (`C51_shape`). -/
def GoodShape (n a : α[X]) : Prop :=
  (n.natDegree ≠ 0 ∧ ∃ z w, z ≠ w ∧ a.eval z = 0 ∧ a.eval w = 0) ∨ ∀ z, a.rootMultiplicity z ≠ 1

/-- One simple root: the residues are a matrix. -/
theorem bad_shape (n : ℂ[X]) : ¬ GoodShape n (listPoly [1, -1]) := by
  rw [listPoly_mono]
  rintro (⟨_, z, w, hzw, h1, h2⟩ | h)
  · simp only [eval_sub, eval_X, eval_C] at h1 h2
    exact hzw (by rw [sub_eq_zero.1 h1, sub_eq_zero.1 h2])
  · exact h 1 rootMultiplicity_X_sub_C_self

/-- **C51 (partial)**: with exact comparisons, the residues, poles and direct terms returned add up to `b / a` wherever `a` does not
vanish; the poles are the roots of `a` with multiplicity; the direct terms are the quotient.  Missing: leading zeros and constants (the
code divides by `a[0]`, and `roots` raises on monomials), and the inputs without `GoodShape` (see `C51_shape`). -/
theorem C51_residue_partial [CharZero α] {eigvals : Nat → (Nat → Nat → α) → List α} (hE : IsEigvals eigvals) {small : α → Bool}
    (hs : ∀ e, small e = true ↔ e = 0) {close : α → α → Bool} {order : List α → List Nat}
    (ho : ∀ l, (order l).Perm (List.range l.length)) {b a : List α}
    (hclose : ∀ x y, (listPoly a).eval x = 0 → (listPoly a).eval y = 0 → close x y = decide (x = y))
    (hb : b ≠ []) (h0 : a.getD 0 0 ≠ 0) {j : Nat} (hj : 0 < j) (hj0 : a.getD j 0 ≠ 0)
    (hgood : GoodShape (listPoly b % listPoly a) (listPoly a)) :
    ∃ r p k, residue eigvals small close order .mean b a = .ok (.flat r, p, k) ∧ r.length = p.length ∧
      listPoly a = C (a.getD 0 0) * (p.map fun z => X - C z).prod ∧ listPoly k = listPoly b / listPoly a ∧
      ∀ z, (listPoly a).eval z ≠ 0 → (listPoly b).eval z / (listPoly a).eval z = (listPoly k).eval z + pfe r p z := by
  obtain ⟨V, p, k, h1, hV, h2, h3, h4, h5, h6⟩ := residue_spec hE hs ho hclose hb h0 hj hj0
  refine ⟨(V.map Val.value).map fun r => r / a.getD 0 0, p, k, ?_, by rw [List.length_map]; exact h5, h2, h3, fun z hz => ?_⟩
  · rw [h1, stackVals_scalars V hV (h4.2 hgood)]; rfl
  · rw [h6 z hz, pfe_map_div]

/-- Without `GoodShape`, that is with a simple pole and either a constant remainder or no other pole, the residues are never a vector:
either `torch.stack` raises, or the result is a column matrix. -/
theorem C51_shape [CharZero α] {eigvals : Nat → (Nat → Nat → α) → List α} (hE : IsEigvals eigvals) {small : α → Bool}
    (hs : ∀ e, small e = true ↔ e = 0) {close : α → α → Bool} {order : List α → List Nat}
    (ho : ∀ l, (order l).Perm (List.range l.length)) {b a : List α}
    (hclose : ∀ x y, (listPoly a).eval x = 0 → (listPoly a).eval y = 0 → close x y = decide (x = y))
    (hb : b ≠ []) (h0 : a.getD 0 0 ≠ 0) {j : Nat} (hj : 0 < j) (hj0 : a.getD j 0 ≠ 0)
    (hbad : ¬ GoodShape (listPoly b % listPoly a) (listPoly a)) :
    ∀ r p k, residue eigvals small close order .mean b a ≠ .ok (.flat r, p, k) := by
  obtain ⟨V, p, k, h1, hV, h2, h3, h4, h5, h6⟩ := residue_spec hE hs ho hclose hb h0 hj hj0
  intro r p' k' h
  rw [h1] at h
  cases hst : stackVals V with
  | error e => rw [hst] at h; cases h
  | ok R =>
    cases R with
    | flat l => exact hbad (h4.1 (stackVals_flat V l hst))
    | rows l => rw [hst] at h; cases h

example {eigvals : Nat → (Nat → Nat → ℂ) → List ℂ} (hE : IsEigvals eigvals) :=
  C51_shape hE (small := fun e => decide (e = 0)) (by simp) (close := fun x y => decide (x = y)) (order := fun l => List.range l.length)
    (fun l => List.Perm.refl _) (b := [1]) (a := [1, -1]) (fun _ _ _ _ => rfl) (by simp) (by simp) (j := 1) (by simp) (by simp) (bad_shape _)

/-- `rtype="min"` and `"max"` always raise. -/
theorem C51_rtype_raises (eigvals : Nat → (Nat → Nat → α) → List α) (small : α → Bool) (close : α → α → Bool)
    (order : List α → List Nat) {rtype : RType} (h : rtype ≠ .mean) (b a : List α) :
    Fails (residue eigvals small close order rtype b a) := by
  unfold residue
  refine fails_bind fun _ _ => fails_bind fun poles _ => fails_left ?_
  exact fails_left (uniqueRoots_fails close h poles none)

example (eigvals : Nat → (Nat → Nat → ℚ) → List ℚ) := C51_rtype_raises eigvals (fun e => decide (e = 0)) (fun x y => decide (x = y))
  (fun l => List.range l.length) (rtype := .min) (by decide) [1, 0] [1, -3, 2]

/-- A monomial denominator always raises. -/
theorem C51_monomial_raises (eigvals : Nat → (Nat → Nat → α) → List α) (small : α → Bool) (close : α → α → Bool)
    (order : List α → List Nat) (rtype : RType) (b a : List α) (i : Nat) (hi : i < a.length)
    (h : ∀ k < a.length, a.getD k 0 ≠ 0 ↔ k = i) : Fails (residue eigvals small close order rtype b a) := by
  unfold residue
  refine fails_bind fun _ _ => fails_left ?_
  exact C49_roots_monomial eigvals a i hi h

example (eigvals : Nat → (Nat → Nat → ℚ) → List ℚ) := C51_monomial_raises eigvals (fun e => decide (e = 0)) (fun x y => decide (x = y))
  (fun l => List.range l.length) .mean [1, 1] [1, 0, 0] 0 (by decide) (by decide)

/-- Non-vacuity of `C51_residue_partial`: `s / (s² - 3s + 2)` over the complex numbers. -/
example {eigvals : Nat → (Nat → Nat → ℂ) → List ℂ} (hE : IsEigvals eigvals) :
    ∃ r p k, residue eigvals (fun e => decide (e = 0)) (fun x y => decide (x = y)) (fun l => List.range l.length) .mean [1, 0] [1, -3, 2] =
      .ok (.flat r, p, k) ∧ r.length = p.length := by
  have hA : listPoly [(1 : ℂ), -3, 2] = X ^ 2 - 3 * X + 2 := by
    rw [listPoly_cons, listPoly_cons, listPoly_singleton]
    simp [show (C 3 : ℂ[X]) = 3 from map_ofNat C 3, show (C 2 : ℂ[X]) = 2 from map_ofNat C 2]; ring
  have hB : listPoly [(1 : ℂ), 0] = X := by rw [listPoly_cons, listPoly_singleton]; simp
  obtain ⟨r, p, k, h1, h2, _⟩ := C51_residue_partial hE (small := fun e => decide (e = 0)) (by simp)
    (close := fun x y => decide (x = y)) (order := fun l => List.range l.length) (fun l => List.Perm.refl _) (b := [1, 0]) (a := [1, -3, 2])
    (fun _ _ _ _ => rfl) (by simp) (by simp) (j := 1) (by simp) (by simp) (by
      left
      have hd : (X ^ 2 - 3 * X + 2 : ℂ[X]).degree = 2 := by compute_degree!
      have hm : listPoly [(1 : ℂ), 0] % listPoly [1, -3, 2] = X := by
        rw [hA, hB, mod_eq_self_iff (by intro h; rw [h] at hd; simp at hd), hd, degree_X]; decide
      rw [hm, natDegree_X]
      refine ⟨one_ne_zero, 1, 2, by norm_num, ?_, ?_⟩ <;> rw [hA] <;> simp <;> norm_num)
  exact ⟨r, p, k, h1, h2⟩

/-- A run with a repeated pole: `(s² + 1) / ((s - 1)² (s - 2))` is `-4/(s-1) - 2/(s-1)² + 5/(s-2)`. -/
example : (residue (fun _ _ => [1, 2, (1 : ℚ)]) (fun e => decide (e = 0)) (fun x y => decide (x = y)) (fun l => List.range l.length) .mean
    [1, 0, 1] [1, -4, 5, -2]).toOption.map (fun x => (match x.1 with | .flat l => l | .rows _ => [], x.2)) =
      some ([-4, -2, 5], [1, 1, 2], []) := by decide +kernel

/-- Without `GoodShape`: the residues of `1 / (s² - 3s + 2)` are a column matrix. -/
example : (residue (fun _ _ => [1, (2 : ℚ)]) (fun e => decide (e = 0)) (fun x y => decide (x = y)) (fun l => List.range l.length) .mean
    [1] [1, -3, 2]).toOption.map (fun x => match x.1 with | .flat _ => [] | .rows l => l) = some [[-1], [1]] := by decide +kernel

end Props
