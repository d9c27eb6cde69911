import Verif.Proof.ProtoOrdered
import Mathlib.Algebra.Polynomial.Reverse

/-! # `residuez`, philtorch/prototype/signal.py:135-169 -/

namespace Phil.Proto
open Torch Spec Polynomial
variable {α : Type} [Field α] [DecidableEq α]

omit [DecidableEq α] in
theorem listPoly_reverse (a : List α) (h0 : a.getD 0 0 ≠ 0) : listPoly a.reverse = (listPoly a).reverse := by
  have hd := (natDegree_list a h0).1
  have hl : 0 < a.length := by
    cases a with
    | nil => simp at h0
    | cons x a => simp
  ext k
  rw [coeff_reverse, hd, coeff_listPoly, coeff_listPoly, List.length_reverse]
  by_cases hk : k < a.length
  · rw [if_pos hk, revAt_le (by omega), if_pos (by omega), List.getD_eq_getElem _ _ (by rw [List.length_reverse]; omega),
      List.getElem_reverse, List.getD_eq_getElem _ _ (by omega)]
  · rw [if_neg hk, revAt_eq_self_of_lt (by omega), if_neg hk]

omit [DecidableEq α] in
theorem reverse_X_sub (p : α) : (X - C p : α[X]).reverse = 1 - C p * X := by
  ext k
  rw [coeff_reverse, natDegree_X_sub_C]
  match k with
  | 0 => rw [revAt_le (by omega)]; simp [coeff_one, coeff_X]
  | 1 => rw [revAt_le (by omega)]; simp [coeff_one, coeff_X]
  | k + 2 =>
    rw [revAt_eq_self_of_lt (by omega)]
    simp [coeff_one, coeff_X]

omit [DecidableEq α] in
theorem reverse_prod (l : List α) : ((l.map fun z => (X - C z : α[X])).prod).reverse = (l.map fun z => (1 - C z * X : α[X])).prod := by
  induction l with
  | nil =>
    rw [List.map_nil, List.prod_nil, List.map_nil, List.prod_nil]
    have := reverse_C (1 : α)
    rwa [C_1] at this
  | cons z l ih => rw [List.map_cons, List.prod_cons, List.map_cons, List.prod_cons, reverse_mul_of_domain, ih, reverse_X_sub]

omit [DecidableEq α] in
/-- The reversed list in terms of the reciprocals of the roots. -/
theorem reverse_roots (a : List α) (h0 : a.getD 0 0 ≠ 0) (hl : a.reverse.getD 0 0 ≠ 0) (ps : List α)
    (hA : listPoly a = C (a.getD 0 0) * (ps.map fun z => X - C z).prod) :
    (∀ z ∈ ps, z ≠ 0) ∧ listPoly a.reverse = C (a.reverse.getD 0 0) * (ps.map fun z => X - C z⁻¹).prod := by
  have h1 : listPoly a.reverse = C (a.getD 0 0) * (ps.map fun z => (1 - C z * X : α[X])).prod := by
    rw [listPoly_reverse a h0, hA, reverse_mul_of_domain, reverse_C, reverse_prod]
  have hz : ∀ z ∈ ps, z ≠ 0 := by
    rintro z hz rfl
    have h2 : (listPoly a).eval 0 = 0 := by
      obtain ⟨l1, l2, rfl⟩ := List.append_of_mem hz
      rw [hA]; simp
    apply hl
    have hlen : 0 < a.length := by
      cases a with
      | nil => simp at h0
      | cons x a => simp
    rw [← coeff_zero_eq_eval_zero, coeff_listPoly, if_pos hlen] at h2
    rw [List.getD_eq_getElem _ _ (by simpa using hlen), List.getElem_reverse]
    rwa [List.getD_eq_getElem _ _ (by omega)] at h2
  have h3 : ∀ l : List α, (∀ z ∈ l, z ≠ 0) → (l.map fun z => (1 - C z * X : α[X])).prod =
      C ((l.map fun z => -z).prod) * (l.map fun z => X - C z⁻¹).prod := by
    intro l hl
    induction l with
    | nil => simp
    | cons z l ih =>
      have hc : C z * C z⁻¹ = (1 : α[X]) := by rw [← C_mul, mul_inv_cancel₀ (hl z (by simp)), C_1]
      simp only [List.map_cons, List.prod_cons]
      rw [ih fun w hw => hl w (List.mem_cons_of_mem _ hw), C_mul, C_neg]
      linear_combination (-(C ((l.map fun z => -z).prod) * (l.map fun z => X - C z⁻¹).prod)) * hc
  refine ⟨hz, ?_⟩
  rw [h3 ps hz, ← mul_assoc, ← C_mul] at h1
  have hlead := (natDegree_list a.reverse hl).2
  have hmonic : (ps.map fun z => (X - C z⁻¹ : α[X])).prod.Monic := by
    have := prodPow_monic (ps.map fun z => (z⁻¹, 1))
    rw [prodPow, List.map_map] at this
    convert this using 3
    funext z
    simp [Function.comp]
  rw [h1, leadingCoeff_mul, hmonic.leadingCoeff, mul_one, leadingCoeff_C] at hlead
  rw [h1, hlead]

/-- The powers of the linear factors of the listed poles. -/
def counts (p : List α) : List Nat := (List.range p.length).map fun k => (p.take (k + 1)).count (p.getD k 0)

theorem counts_append (p1 p2 : List α) (hd : ∀ x ∈ p2, x ∉ p1) : counts (p1 ++ p2) = counts p1 ++ counts p2 := by
  unfold counts
  rw [List.length_append, List.range_add, List.map_append, List.map_map]
  congr 1
  · refine List.map_congr_left fun k hk => ?_
    have hk := List.mem_range.1 hk
    rw [List.take_append_of_le_length (by omega), List.getD_append _ _ _ _ hk]
  · refine List.map_congr_left fun k hk => ?_
    have hk := List.mem_range.1 hk
    simp only [Function.comp]
    rw [List.getD_append_right _ _ _ _ (by omega), Nat.add_sub_cancel_left, Nat.add_assoc, List.take_append,
      List.take_of_length_le (by omega : p1.length ≤ p1.length + (k + 1)), Nat.add_sub_cancel_left, List.count_append,
      List.count_eq_zero.2 (hd _ _), Nat.zero_add]
    rw [List.getD_eq_getElem _ _ hk]
    exact List.getElem_mem hk

theorem counts_replicate (m : Nat) (p : α) : counts (List.replicate m p) = (List.range m).map (· + 1) := by
  unfold counts
  rw [List.length_replicate]
  refine List.map_congr_left fun k hk => ?_
  have hk := List.mem_range.1 hk
  rw [List.getD_eq_getElem _ _ (by simpa using hk), List.getElem_replicate, List.take_replicate, List.count_replicate_self]
  omega

theorem counts_repeatPoles (rm : List (α × Nat)) (hn : (rm.map fun x => x.1).Nodup) :
    counts (repeatPoles rm) = rm.flatMap fun x => (List.range x.2).map (· + 1) := by
  induction rm with
  | nil => rfl
  | cons x rm ih =>
    rw [List.map_cons, List.nodup_cons] at hn
    unfold repeatPoles at ih ⊢
    rw [List.flatMap_cons, List.flatMap_cons, counts_append, counts_replicate, ih hn.2]
    intro y hy hy'
    rw [List.mem_replicate] at hy'
    obtain ⟨z, hz, hz'⟩ := List.mem_flatMap.1 hy
    rw [List.mem_replicate] at hz'
    exact hn.1 (List.mem_map.2 ⟨z, hz, by rw [← hz'.2, hy'.2]⟩)

omit [DecidableEq α] in
theorem repeatPoles_inv (rm : List (α × Nat)) : repeatPoles (rm.map fun x => (x.1⁻¹, x.2)) = (repeatPoles rm).map fun z => z⁻¹ := by
  unfold repeatPoles
  rw [List.flatMap_map, List.map_flatMap]
  exact List.flatMap_congr fun x _ => by rw [List.map_replicate]

/-- From the partial fractions in the reciprocals of the poles to those of the code. -/
theorem pfez_eq (R p : List α) (hl : R.length = p.length) (hp : ∀ z ∈ p, z ≠ 0) (c w : α) :
    pfez ((R.zipWith (· * ·) (p.zipWith (fun p n => (-p) ^ n) (counts p))).map fun x => x / c) p w =
      pfe R (p.map fun z => z⁻¹) w / c := by
  unfold pfez pfe
  rw [Finset.sum_div, List.length_map]
  refine Finset.sum_congr rfl fun k hk => ?_
  have hk := Finset.mem_range.1 hk
  have hcl : (counts p).length = p.length := by simp [counts]
  have h0 : p[k] ≠ 0 := hp _ (List.getElem_mem hk)
  have e1 : (p.map fun z => z⁻¹).getD k 0 = p[k]⁻¹ := by
    rw [List.getD_eq_getElem _ _ (by simpa using hk), List.getElem_map]
  have e2 : ((p.map fun z => z⁻¹).take (k + 1)).count p[k]⁻¹ = (p.take (k + 1)).count p[k] := by
    rw [← List.map_take, List.count_map_of_injective _ _ inv_injective]
  have e3 : (counts p)[k]'(by omega) = (p.take (k + 1)).count p[k] := by
    simp only [counts, List.getElem_map, List.getElem_range]
    rw [List.getD_eq_getElem _ _ hk]
  rw [e1, e2, List.getD_eq_getElem _ _ (by simp; omega), List.getElem_map, List.getElem_zipWith, List.getElem_zipWith, e3,
    List.getD_eq_getElem p _ hk, List.getD_eq_getElem R _ (by omega)]
  have e4 : 1 - p[k] * w = -p[k] * (w - p[k]⁻¹) := by field_simp; ring
  have h1 : -p[k] ≠ 0 := neg_ne_zero.2 h0
  rw [e4, mul_pow]
  generalize (p.take (k + 1)).count p[k] = n
  have h2 : (-p[k]) ^ n ≠ 0 := pow_ne_zero _ h1
  rw [div_right_comm, mul_comm (R[k]'(by omega)) _, mul_div_mul_left _ _ h2]

/-- `residuez`, all cases. -/
theorem residuez_spec [CharZero α] {eigvals : Nat → (Nat → Nat → α) → List α} (hE : IsEigvals eigvals) {small : α → Bool}
    (hs : ∀ e, small e = true ↔ e = 0) {close : α → α → Bool} {order : List α → List Nat} (ho : IsOrder order) {b a : List α}
    (hclose : ∀ x y, (listPoly a).eval x = 0 → (listPoly a).eval y = 0 → close x y = decide (x = y))
    (hb : b ≠ []) (h0 : a.getD 0 0 ≠ 0) (hl : a.reverse.getD 0 0 ≠ 0) (h2 : 2 ≤ a.length) :
    ∃ V p k, residuez eigvals small close order .mean b a =
        (stackVals V >>= fun r => .ok ((r.mulVec (p.zipWith (fun p n => (-p) ^ n) (counts p))).map fun r => r / a.reverse.getD 0 0, p, k)) ∧
      V ≠ [] ∧ listPoly a = C (a.getD 0 0) * (p.map fun z => X - C z).prod ∧ (∀ z ∈ p, z ≠ 0) ∧
      listPoly k.reverse = listPoly b.reverse / listPoly a.reverse ∧
      ((∀ v ∈ V, v.IsScalar) ↔ (((listPoly b.reverse % listPoly a.reverse).natDegree ≠ 0 ∧
        ∃ z w, z ≠ w ∧ (listPoly a).eval z = 0 ∧ (listPoly a).eval w = 0) ∨ ∀ z, (listPoly a).rootMultiplicity z ≠ 1)) ∧
      (V.map Val.value).length = p.length ∧
      ∀ w, (listPoly a.reverse).eval w ≠ 0 →
        (listPoly b.reverse).eval w / (listPoly a.reverse).eval w =
          (listPoly k.reverse).eval w + pfe (V.map Val.value) (p.map fun z => z⁻¹) w / a.reverse.getD 0 0 := by
  have hj0 : a.getD (a.length - 1) 0 ≠ 0 := by
    rw [List.getD_eq_getElem _ _ (by simp; omega), List.getElem_reverse] at hl
    rw [List.getD_eq_getElem _ _ (by omega)]
    simpa using hl
  obtain ⟨ps, hps, hne, hA⟩ := roots_lead hE a h0 (by omega : 0 < a.length - 1) hj0
  have hroot : ∀ x ∈ ps, (listPoly a).eval x = 0 := by
    intro x hx
    obtain ⟨l1, l2, rfl⟩ := List.append_of_mem hx
    rw [hA]; simp
  obtain ⟨rm, hrm, hrm0, hnod, hpos, hprod, hperm⟩ := orderedRoots_spec ho hne fun x hx y hy => hclose x y (hroot x hx) (hroot y hy)
  obtain ⟨hq, hr⟩ := quotRem small hs b.reverse a.reverse hl
  rw [← hprod, ← prod_repeatPoles] at hA
  obtain ⟨hpz, hA'⟩ := reverse_roots a h0 hl _ hA
  have hnod' : ((rm.map fun x => (x.1⁻¹, x.2)).map fun x => x.1).Nodup := by
    have := hnod.map inv_injective
    rw [List.map_map] at this ⊢
    exact this
  have hA'' : listPoly a.reverse = C (a.reverse.getD 0 0) * prodPow (rm.map fun x => (x.1⁻¹, x.2)) := by
    rw [hA', ← prod_repeatPoles, repeatPoles_inv, List.map_map]; rfl
  have hA0 : listPoly a.reverse ≠ 0 := by
    rw [hA'']; exact mul_ne_zero (C_ne_zero.2 hl) (prodPow_monic _).ne_zero
  obtain ⟨V, hV, hV0, hsc, hval⟩ := computeResidues_vals small ((hs 0).2 rfl) (rm.map fun x => (x.1⁻¹, x.2)) (by simpa using hrm0) hnod'
    (by intro x hx; obtain ⟨y, hy, rfl⟩ := List.mem_map.1 hx; exact hpos y hy)
    (if b.reverse.length < a.reverse.length then (([], b.reverse) : List α × List α) else polydiv small b.reverse a.reverse).2
  rw [hr] at hsc hval
  have hdeg : (listPoly b.reverse % listPoly a.reverse).degree < (prodPow (rm.map fun x => (x.1⁻¹, x.2))).degree := by
    have := EuclideanDomain.mod_lt (listPoly b.reverse) hA0
    refine lt_of_lt_of_le (b := (listPoly a.reverse).degree) this (le_of_eq ?_)
    rw [hA'', degree_C_mul hl]
  obtain ⟨hlen, hval⟩ := hval hdeg
  refine ⟨V, repeatPoles rm, (if b.reverse.length < a.reverse.length then (([], b.reverse) : List α × List α) else
    polydiv small b.reverse a.reverse).1.reverse, ?_, hV0, hA, hpz, ?_, ?_, ?_, ?_⟩
  · unfold residuez
    refine check_step ⟨List.length_pos_iff.2 hb, by omega⟩ ?_
    refine bind_step hps ?_
    refine bind_step hrm ?_
    rw [hV, counts_repeatPoles rm hnod]
    rfl
  · rw [List.reverse_reverse, hq]
  · rw [hsc]
    have hA1 : listPoly a = C (a.getD 0 0) * prodPow rm := by rw [hA, prod_repeatPoles]
    rw [← shape_condition hnod hpos h0 hA1]
    rw [List.length_map]
    refine or_congr Iff.rfl ⟨fun h x hx => h (x.1⁻¹, x.2) (List.mem_map.2 ⟨x, hx, rfl⟩), fun h x hx => ?_⟩
    obtain ⟨y, hy, rfl⟩ := List.mem_map.1 hx
    exact h y hy
  · rw [hlen, repeatPoles_inv, List.length_map]
  · intro z hz
    rw [List.reverse_reverse, hq]
    have hz' : (prodPow (rm.map fun x => (x.1⁻¹, x.2))).eval z ≠ 0 := by
      intro h
      apply hz
      rw [hA'', eval_mul, h, mul_zero]
    rw [← repeatPoles_inv, ← hval z hz']
    have hsplit := congrArg (eval z) (EuclideanDomain.div_add_mod (listPoly b.reverse) (listPoly a.reverse))
    rw [eval_add, eval_mul] at hsplit
    have hAz : (listPoly a.reverse).eval z = a.reverse.getD 0 0 * (prodPow (rm.map fun x => (x.1⁻¹, x.2))).eval z := by
      rw [hA'', eval_mul, eval_C]
    rw [← hsplit, hAz]
    generalize (prodPow (rm.map fun x => (x.1⁻¹, x.2))).eval z = q at hz'
    field_simp

end Phil.Proto
