import Verif.Proof.ProtoResiduez
import Verif.Props.C51

/-!
# C52: `residuez`, partial fractions of b(z) / a(z) in powers of 1/z

A list `b` stands for `b₀ + b₁ w + b₂ w² + …` with `w = 1/z`, the polynomial `listPoly b.reverse`.
-/

namespace Props
open Torch Polynomial Phil.Proto Spec
variable {α : Type} [Field α] [DecidableEq α]

/-- **C52 (partial)**: with exact comparisons, the residues, poles and direct terms returned add up to `b / a`, as functions of `w = 1/z`,
wherever `a` does not vanish; the poles are the roots of `a` in `z` with multiplicity; the direct terms are the quotient.  Missing: first
or last coefficient zero (the code divides by both; a pole at `0` has no reciprocal), and the inputs without `GoodShape` (see
`C52_shape`). -/
theorem C52_residuez_partial [CharZero α] {eigvals : Nat → (Nat → Nat → α) → List α} (hE : IsEigvals eigvals) {small : α → Bool}
    (hs : ∀ e, small e = true ↔ e = 0) {close : α → α → Bool} {order : List α → List Nat}
    (ho : ∀ l, (order l).Perm (List.range l.length)) {b a : List α}
    (hclose : ∀ x y, (listPoly a).eval x = 0 → (listPoly a).eval y = 0 → close x y = decide (x = y))
    (hb : b ≠ []) (h2 : 2 ≤ a.length) (h0 : a.getD 0 0 ≠ 0) (hl : a.getD (a.length - 1) 0 ≠ 0)
    (hgood : GoodShape (listPoly b.reverse % listPoly a.reverse) (listPoly a)) :
    ∃ r p k, residuez eigvals small close order .mean b a = .ok (.flat r, p, k) ∧ r.length = p.length ∧
      listPoly a = C (a.getD 0 0) * (p.map fun z => X - C z).prod ∧
      listPoly k.reverse = listPoly b.reverse / listPoly a.reverse ∧
      ∀ w, (listPoly a.reverse).eval w ≠ 0 →
        (listPoly b.reverse).eval w / (listPoly a.reverse).eval w = (listPoly k.reverse).eval w + pfez r p w := by
  have hl' : a.reverse.getD 0 0 ≠ 0 := by
    rw [List.getD_eq_getElem _ _ (by simp; omega), List.getElem_reverse]
    rw [List.getD_eq_getElem _ _ (by omega)] at hl
    simpa using hl
  obtain ⟨V, p, k, h1, hV, h3, hp, h4, h5, h6, h7⟩ := residuez_spec hE hs ho hclose hb h0 hl' h2
  refine ⟨((V.map Val.value).zipWith (· * ·) (p.zipWith (fun p n => (-p) ^ n) (counts p))).map fun r => r / a.reverse.getD 0 0, p, k, ?_,
    ?_, h3, h4, fun w hw => ?_⟩
  · rw [h1, stackVals_scalars V hV (h5.2 hgood)]; rfl
  · have : (counts p).length = p.length := by simp [counts]
    rw [List.length_map, List.length_zipWith, List.length_zipWith, h6, this]; simp
  · rw [h7 w hw, pfez_eq _ _ h6 hp]

/-- Without `GoodShape` the residues are never a vector: `torch.stack` raises, or the column of residues is broadcast against the row of
powers to a square matrix. -/
theorem C52_shape [CharZero α] {eigvals : Nat → (Nat → Nat → α) → List α} (hE : IsEigvals eigvals) {small : α → Bool}
    (hs : ∀ e, small e = true ↔ e = 0) {close : α → α → Bool} {order : List α → List Nat}
    (ho : ∀ l, (order l).Perm (List.range l.length)) {b a : List α}
    (hclose : ∀ x y, (listPoly a).eval x = 0 → (listPoly a).eval y = 0 → close x y = decide (x = y))
    (hb : b ≠ []) (h2 : 2 ≤ a.length) (h0 : a.getD 0 0 ≠ 0) (hl : a.getD (a.length - 1) 0 ≠ 0)
    (hbad : ¬ GoodShape (listPoly b.reverse % listPoly a.reverse) (listPoly a)) :
    ∀ r p k, residuez eigvals small close order .mean b a ≠ .ok (.flat r, p, k) := by
  have hl' : a.reverse.getD 0 0 ≠ 0 := by
    rw [List.getD_eq_getElem _ _ (by simp; omega), List.getElem_reverse]
    rw [List.getD_eq_getElem _ _ (by omega)] at hl
    simpa using hl
  obtain ⟨V, p, k, h1, hV, h3, hp, h4, h5, h6, h7⟩ := residuez_spec hE hs ho hclose hb h0 hl' h2
  intro r p' k' h
  rw [h1] at h
  cases hst : stackVals V with
  | error e => rw [hst] at h; cases h
  | ok R =>
    cases R with
    | flat l => exact hbad (h5.1 (stackVals_flat V l hst))
    | rows l => rw [hst] at h; cases h

example {eigvals : Nat → (Nat → Nat → ℂ) → List ℂ} (hE : IsEigvals eigvals) :=
  C52_shape hE (small := fun e => decide (e = 0)) (by simp) (close := fun x y => decide (x = y)) (order := fun l => List.range l.length)
    (fun l => List.Perm.refl _) (b := [1]) (a := [1, -1]) (fun _ _ _ _ => rfl) (by simp) (by simp) (by simp) (by simp) (bad_shape _)

omit [DecidableEq α] in
/-- The polynomial of the reversed list is the sum of the coefficients times powers of `w`. -/
theorem C52_delay_form (b : List α) (w : α) : (listPoly b.reverse).eval w = ∑ i ∈ Finset.range b.length, b.getD i 0 * w ^ i := by
  cases b with
  | nil => simp [listPoly, descPoly]
  | cons x b =>
  generalize hb : x :: b = b
  have hlen : 0 < b.length := by rw [← hb]; simp
  rw [eval_eq_sum_range' (n := b.length)]
  · refine Finset.sum_congr rfl fun i hi => ?_
    have hi := Finset.mem_range.1 hi
    rw [coeff_listPoly, List.length_reverse, if_pos hi, List.getD_eq_getElem _ _ (by rw [List.length_reverse]; omega),
      List.getElem_reverse, List.getD_eq_getElem _ _ hi]
    congr 2
    omega
  · by_cases h : listPoly b.reverse = 0
    · rw [h, natDegree_zero]; exact hlen
    · have := listPoly_degree b.reverse
      rwa [List.length_reverse, ← natDegree_lt_iff_degree_lt h] at this

/-- `rtype="min"` and `"max"` always raise. -/
theorem C52_rtype_raises (eigvals : Nat → (Nat → Nat → α) → List α) (small : α → Bool) (close : α → α → Bool)
    (order : List α → List Nat) {rtype : RType} (h : rtype ≠ .mean) (b a : List α) :
    Fails (residuez eigvals small close order rtype b a) := by
  unfold residuez
  refine fails_bind fun _ _ => fails_bind fun poles _ => fails_left ?_
  exact fails_left (uniqueRoots_fails close h poles none)

example (eigvals : Nat → (Nat → Nat → ℚ) → List ℚ) := C52_rtype_raises eigvals (fun e => decide (e = 0)) (fun x y => decide (x = y))
  (fun l => List.range l.length) (rtype := .max) (by decide) [1, 0] [1, -3, 2]

/-- A run: `1 / ((1 - 2w)(1 - 3w))`, that is `z² / ((z-2)(z-3))`, has no good shape: the residues `[3], [-2]` become a matrix. -/
example : (residuez (fun _ _ => [3, (2 : ℚ)]) (fun e => decide (e = 0)) (fun x y => decide (x = y)) (fun l => List.range l.length) .mean
    [1] [1, -5, 6]).toOption.map (fun x => match x.1 with | .flat _ => [] | .rows l => l) = some [[3, 2], [-3, -2]] := by decide +kernel

/-- A run with a repeated pole and direct terms: `(1 + w³) / (1 - 2w)²`. -/
example : (residuez (fun _ _ => [2, (2 : ℚ)]) (fun e => decide (e = 0)) (fun x y => decide (x = y)) (fun l => List.range l.length) .mean
    [1, 0, 0, 1] [1, -4, 4]).toOption.map (fun x => (match x.1 with | .flat l => l | .rows _ => [], x.2)) =
      some ([-3 / 8, 9 / 8], [2, 2], [1 / 4, 1 / 4]) := by decide +kernel

/-- The hypothesis on the shape, for `(1 + w) / (1 - 3w + 2w²)`. -/
theorem good_example : GoodShape (listPoly [(1 : ℂ), 1].reverse % listPoly [(1 : ℂ), -3, 2].reverse) (listPoly [1, -3, 2]) := by
  have hA : listPoly [(1 : ℂ), -3, 2] = X ^ 2 - 3 * X + 2 := by
    rw [listPoly_cons, listPoly_cons, listPoly_singleton]
    simp [show (C 3 : ℂ[X]) = 3 from map_ofNat C 3, show (C 2 : ℂ[X]) = 2 from map_ofNat C 2]; ring
  have hA' : listPoly [(1 : ℂ), -3, 2].reverse = 2 * X ^ 2 - 3 * X + 1 := by
    rw [List.reverse_cons, List.reverse_cons, List.reverse_cons, List.reverse_nil]
    simp only [List.nil_append, List.cons_append]
    rw [listPoly_cons, listPoly_cons, listPoly_singleton]
    simp [show (C 3 : ℂ[X]) = 3 from map_ofNat C 3, show (C 2 : ℂ[X]) = 2 from map_ofNat C 2]; ring
  have hB : listPoly [(1 : ℂ), 1].reverse = X + 1 := by
    rw [List.reverse_cons, List.reverse_cons, List.reverse_nil]
    simp only [List.nil_append, List.cons_append]
    rw [listPoly_cons, listPoly_singleton]; simp
  left
  have hd : (2 * X ^ 2 - 3 * X + 1 : ℂ[X]).degree = 2 := by compute_degree!
  have hd1 : (X + 1 : ℂ[X]).degree = 1 := by compute_degree!
  have hm : listPoly [(1 : ℂ), 1].reverse % listPoly [(1 : ℂ), -3, 2].reverse = X + 1 := by
    rw [hA', hB, mod_eq_self_iff (by intro h; rw [h] at hd; simp at hd), hd, hd1]; decide
  rw [hm]
  refine ⟨?_, 1, 2, by norm_num, ?_, ?_⟩
  · rw [natDegree_eq_of_degree_eq_some hd1]; decide
  · rw [hA]; simp; norm_num
  · rw [hA]; simp; norm_num

/-- Non-vacuity of `C52_residuez_partial`: `(1 + w) / (1 - 3w + 2w²)` over the complex numbers. -/
example {eigvals : Nat → (Nat → Nat → ℂ) → List ℂ} (hE : IsEigvals eigvals) :
    ∃ r p k, residuez eigvals (fun e => decide (e = 0)) (fun x y => decide (x = y)) (fun l => List.range l.length) .mean [1, 1] [1, -3, 2] =
      .ok (.flat r, p, k) ∧ r.length = p.length := by
  obtain ⟨r, p, k, h1, h2, _⟩ := C52_residuez_partial hE (small := fun e => decide (e = 0)) (by simp)
    (close := fun x y => decide (x = y)) (order := fun l => List.range l.length) (fun l => List.Perm.refl _) (b := [1, 1]) (a := [1, -3, 2])
    (fun _ _ _ _ => rfl) (by simp) (by simp) (by simp) (by simp) good_example
  exact ⟨r, p, k, h1, h2⟩

end Props
