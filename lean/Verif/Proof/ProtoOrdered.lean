import Verif.Proof.ProtoResidueMain
import Mathlib.Algebra.Polynomial.FieldDivision

/-! # The distinct poles, philtorch/prototype/signal.py -/

namespace Phil.Proto
open Torch Spec Polynomial
variable {α : Type} [Field α] [DecidableEq α]

/-- What is assumed of `torch.argsort`: a permutation of the indices. -/
def IsOrder (order : List α → List Nat) : Prop := ∀ l, (order l).Perm (List.range l.length)

omit [DecidableEq α] in
theorem perm_prodPow {l m : List (α × Nat)} (h : l.Perm m) : prodPow l = prodPow m := (h.map _).prod_eq

theorem orderedRoots_spec [CharZero α] {close : α → α → Bool} {order : List α → List Nat} (ho : IsOrder order) {poles : List α}
    (hp : poles ≠ []) (hclose : ∀ x ∈ poles, ∀ y ∈ poles, close x y = decide (x = y)) :
    ∃ rm, orderedRoots close order .mean poles = .ok rm ∧ rm ≠ [] ∧ (rm.map fun x => x.1).Nodup ∧ (∀ x ∈ rm, 0 < x.2) ∧
      prodPow rm = (poles.map fun z => X - C z).prod ∧ (repeatPoles rm).Perm poles := by
  obtain ⟨u, hu, hnod, hperm, hpos⟩ := uniqueRoots_eq hp hclose none (by simp)
  rw [Option.getD_none] at hperm
  have hflag : ∀ x ∈ u, x.2.2 = true := by
    intro x hx
    have h1 : (x.1, x.2.2) ∈ u.flatMap fun x => List.replicate x.2.1 (x.1, x.2.2) :=
      List.mem_flatMap.2 ⟨x, hx, List.mem_replicate.2 ⟨(hpos x hx).ne', rfl⟩⟩
    have h2 := (List.of_mem_zip ((hperm.mem_iff).1 h1)).2
    exact List.eq_of_mem_replicate h2
  have hnod' : (u.map fun x => x.1).Nodup := by
    have he : (u.map fun x => (x.1, x.2.2)) = (u.map fun x => x.1).map fun z => (z, true) := by
      rw [List.map_map]
      refine List.map_congr_left fun x hx => ?_
      simp only [Function.comp, hflag x hx]
    rw [he] at hnod
    exact List.Nodup.of_map _ hnod
  have hrm : ((order (u.map fun x => x.1)).map fun i => ((u.getD i (0, 0, false)).1, (u.getD i (0, 0, false)).2.1)).Perm
      (u.map fun x => (x.1, x.2.1)) := by
    have h1 := (ho (u.map fun x => x.1)).map fun i => ((u.getD i (0, 0, false)).1, (u.getD i (0, 0, false)).2.1)
    refine h1.trans (List.Perm.of_eq ?_)
    refine List.ext_getElem (by simp) fun i h1 h2 => ?_
    have hi : i < u.length := by simpa using h2
    rw [List.getElem_map, List.getElem_range, List.getElem_map, List.getD_eq_getElem _ _ hi]
  have hrep : (repeatPoles (u.map fun x => (x.1, x.2.1))).Perm poles := by
    have h1 := hperm.map Prod.fst
    rw [List.map_fst_zip (by simp), List.map_flatMap] at h1
    rw [repeatPoles, List.flatMap_map]
    refine List.Perm.trans (List.Perm.of_eq ?_) h1
    exact List.flatMap_congr fun x _ => by rw [List.map_replicate]
  have hrep' : (repeatPoles ((order (u.map fun x => x.1)).map fun i =>
      ((u.getD i (0, 0, false)).1, (u.getD i (0, 0, false)).2.1))).Perm poles := (hrm.flatMap_right _).trans hrep
  refine ⟨_, bind_step hu rfl, ?_, ?_, ?_, ?_, hrep'⟩
  · intro h
    rw [h] at hrep'
    exact hp hrep'.symm.eq_nil
  · refine (hrm.map fun x => x.1).nodup_iff.2 ?_
    rw [List.map_map]; exact hnod'
  · intro x hx
    obtain ⟨y, hy, rfl⟩ := List.mem_map.1 (hrm.mem_iff.1 hx)
    exact hpos y hy
  · rw [← prod_repeatPoles]
    exact (hrep'.map _).prod_eq

omit [DecidableEq α] in
theorem rootMultiplicity_prodPow {rm : List (α × Nat)} (hn : (rm.map fun x => x.1).Nodup) {x : α × Nat} (hx : x ∈ rm) :
    (prodPow rm).rootMultiplicity x.1 = x.2 := by
  obtain ⟨l1, l2, rfl⟩ := List.append_of_mem hx
  have hf : prodPow (l1 ++ l2) * (X - C x.1) ^ x.2 = prodPow (l1 ++ x :: l2) := by
    rw [prodPow_append, prodPow_append, prodPow_cons]; ring
  have h1 := (factor_facts hn hx hf).1
  rw [← hf, rootMultiplicity_mul_X_sub_C_pow (prodPow_monic _).ne_zero, rootMultiplicity_eq_zero h1, zero_add]

omit [DecidableEq α] in
theorem mem_of_root {rm : List (α × Nat)} {z : α} (hz : (prodPow rm).eval z = 0) : ∃ x ∈ rm, z = x.1 := by
  by_contra h
  simp only [not_exists, not_and] at h
  exact prodPow_eval_ne rm z h hz

omit [DecidableEq α] in
theorem root_of_mem {rm : List (α × Nat)} {x : α × Nat} (hx : x ∈ rm) (hm : 0 < x.2) : (prodPow rm).eval x.1 = 0 := by
  obtain ⟨l1, l2, rfl⟩ := List.append_of_mem hx
  rw [prodPow_append, prodPow_cons]
  simp [hm.ne']

omit [DecidableEq α] in
/-- The condition under which all residues are 0-D, in terms of the polynomial. -/
theorem shape_condition {rm : List (α × Nat)} (hn : (rm.map fun x => x.1).Nodup) (hm : ∀ x ∈ rm, 0 < x.2) {c : α} (hc : c ≠ 0)
    {A : α[X]} (hA : A = C c * prodPow rm) (P : Prop) :
    ((P ∧ 2 ≤ rm.length) ∨ ∀ x ∈ rm, x.2 ≠ 1) ↔
      ((P ∧ ∃ z w, z ≠ w ∧ A.eval z = 0 ∧ A.eval w = 0) ∨ ∀ z, A.rootMultiplicity z ≠ 1) := by
  have h1 : 2 ≤ rm.length ↔ ∃ z w, z ≠ w ∧ A.eval z = 0 ∧ A.eval w = 0 := by
    constructor
    · intro h
      match rm, h with
      | x :: y :: l, _ =>
        rw [List.map_cons, List.map_cons, List.nodup_cons] at hn
        refine ⟨x.1, y.1, fun he => hn.1 (by rw [he]; simp), ?_, ?_⟩
        · rw [hA, eval_mul, root_of_mem (x := x) (by simp) (hm x (by simp)), mul_zero]
        · rw [hA, eval_mul, root_of_mem (x := y) (by simp) (hm y (by simp)), mul_zero]
    · rintro ⟨z, w, hne, hz, hw⟩
      rw [hA, eval_mul, eval_C] at hz hw
      obtain ⟨x, hx, rfl⟩ := mem_of_root ((mul_eq_zero.1 hz).resolve_left hc)
      obtain ⟨y, hy, rfl⟩ := mem_of_root ((mul_eq_zero.1 hw).resolve_left hc)
      by_contra hlt
      match rm, hx, hy with
      | [a], hx, hy =>
        rw [List.mem_singleton] at hx hy
        exact hne (by rw [hx, hy])
      | a :: b :: l, _, _ => simp at hlt
  have h2 : (∀ x ∈ rm, x.2 ≠ 1) ↔ ∀ z, A.rootMultiplicity z ≠ 1 := by
    have hmul : ∀ z, A.rootMultiplicity z = (prodPow rm).rootMultiplicity z := by
      intro z
      have hne : C c * prodPow rm ≠ 0 := mul_ne_zero (C_ne_zero.2 hc) (prodPow_monic rm).ne_zero
      rw [hA, rootMultiplicity_mul hne, rootMultiplicity_C, zero_add]
    constructor
    · intro h z hz
      rw [hmul] at hz
      have hroot : (prodPow rm).eval z = 0 := by
        by_contra hne
        rw [rootMultiplicity_eq_zero hne] at hz
        omega
      obtain ⟨x, hx, rfl⟩ := mem_of_root hroot
      rw [rootMultiplicity_prodPow hn hx] at hz
      exact h x hx hz
    · intro h x hx hx1
      refine h x.1 ?_
      rw [hmul, rootMultiplicity_prodPow hn hx, hx1]
  rw [h1, h2]

omit [DecidableEq α] in
theorem natDegree_list (a : List α) (h0 : a.getD 0 0 ≠ 0) : (listPoly a).natDegree = a.length - 1 ∧ (listPoly a).leadingCoeff = a.getD 0 0 := by
  have hl : 0 < a.length := by
    cases a with
    | nil => simp at h0
    | cons x a => simp
  have hc : (listPoly a).coeff (a.length - 1) = a.getD 0 0 := by
    rw [coeff_listPoly, if_pos (by omega), Nat.sub_self]
  have hd : (listPoly a).natDegree = a.length - 1 := by
    refine natDegree_eq_of_le_of_coeff_ne_zero ?_ (by rwa [hc])
    rw [natDegree_le_iff_coeff_eq_zero]
    intro k hk
    rw [coeff_listPoly, if_neg (by omega)]
  exact ⟨hd, by rw [leadingCoeff, hd, hc]⟩

theorem pfe_map_div (r p : List α) (c z : α) : pfe (r.map fun x => x / c) p z = pfe r p z / c := by
  unfold pfe
  rw [Finset.sum_div]
  refine Finset.sum_congr rfl fun k _ => ?_
  have : (r.map fun x => x / c).getD k 0 = r.getD k 0 / c := by
    rcases Nat.lt_or_ge k r.length with h | h
    · rw [List.getD_eq_getElem _ _ (by simpa using h), List.getElem_map, List.getD_eq_getElem _ _ h]
    · rw [List.getD_eq_default _ _ (by simpa using h), List.getD_eq_default _ _ h, zero_div]
  rw [this, div_right_comm]

/-- The quotient and the remainder `residue` works with. -/
theorem quotRem (small : α → Bool) (hs : ∀ e, small e = true ↔ e = 0) (b a : List α) (h0 : a.getD 0 0 ≠ 0) :
    listPoly (if b.length < a.length then (([], b) : List α × List α) else polydiv small b a).1 = listPoly b / listPoly a ∧
      listPoly (if b.length < a.length then (([], b) : List α × List α) else polydiv small b a).2 = listPoly b % listPoly a := by
  obtain ⟨hd, hl⟩ := natDegree_list a h0
  have ha : listPoly a ≠ 0 := by
    intro h
    rw [h, leadingCoeff_zero] at hl
    exact h0 hl.symm
  by_cases h : b.length < a.length
  · rw [if_pos h]
    have hdeg : (listPoly b).degree < (listPoly a).degree := by
      refine lt_of_lt_of_le (listPoly_degree b) ?_
      rw [degree_eq_natDegree ha, hd]
      exact_mod_cast (by omega : b.length ≤ a.length - 1)
    exact ⟨((Polynomial.div_eq_zero_iff ha).2 hdeg).symm, ((mod_eq_self_iff ha).2 hdeg).symm⟩
  · rw [if_neg h]
    obtain ⟨h1, h2, _⟩ := polydiv_exact small hs b a ha
    have hu := div_modByMonic_unique (f := listPoly b) (g := listPoly a * C (listPoly a).leadingCoeff⁻¹)
      (C (listPoly a).leadingCoeff * listPoly (polydiv small b a).1) (listPoly (polydiv small b a).2)
      (monic_mul_leadingCoeff_inv ha) ⟨by
        have hc : C (listPoly a).leadingCoeff⁻¹ * C (listPoly a).leadingCoeff = (1 : α[X]) := by
          rw [← C_mul, inv_mul_cancel₀ (leadingCoeff_ne_zero.2 ha), C_1]
        rw [h1]
        linear_combination (listPoly a * listPoly (polydiv small b a).1) * hc, by
        rwa [degree_mul_leadingCoeff_inv _ ha]⟩
    refine ⟨?_, ?_⟩
    · rw [div_def, hu.1, ← mul_assoc, ← C_mul, inv_mul_cancel₀ (leadingCoeff_ne_zero.2 ha), C_1, one_mul]
    · rw [mod_def, hu.2]

/-- `roots` of a polynomial whose first and some later coefficient are not zero. -/
theorem roots_lead {eigvals : Nat → (Nat → Nat → α) → List α} (hE : IsEigvals eigvals) (a : List α) (h0 : a.getD 0 0 ≠ 0) {j : Nat}
    (hj : 0 < j) (hj0 : a.getD j 0 ≠ 0) :
    ∃ r, Phil.Proto.roots eigvals a = .ok r ∧ r ≠ [] ∧ listPoly a = C (a.getD 0 0) * (r.map fun z => X - C z).prod := by
  have hjl : j < a.length := by
    by_contra h
    exact hj0 (List.getD_eq_default _ _ (by omega))
  have h1 := (mem_nonzero a 0).2 ⟨by omega, h0⟩
  have h2 := (mem_nonzero a j).2 ⟨hjl, hj0⟩
  match hl : nonzero a with
  | [] => rw [hl] at h1; cases h1
  | [i] =>
    rw [hl, List.mem_singleton] at h1 h2
    omega
  | i :: k :: l =>
    have hi : i = 0 := by
      by_contra hne
      exact h0 ((nonzero_head hl).2.2 0 (by omega))
    subst hi
    obtain ⟨r, hr, hr'⟩ := roots_spec hE hl
    refine ⟨r, hr, ?_, hr'⟩
    rintro rfl
    have hd := (natDegree_list a h0).1
    rw [hr'] at hd
    simp at hd
    omega

/-- `residue`, all cases. -/
theorem residue_spec [CharZero α] {eigvals : Nat → (Nat → Nat → α) → List α} (hE : IsEigvals eigvals) {small : α → Bool}
    (hs : ∀ e, small e = true ↔ e = 0) {close : α → α → Bool} {order : List α → List Nat} (ho : IsOrder order) {b a : List α}
    (hclose : ∀ x y, (listPoly a).eval x = 0 → (listPoly a).eval y = 0 → close x y = decide (x = y))
    (hb : b ≠ []) (h0 : a.getD 0 0 ≠ 0) {j : Nat} (hj : 0 < j) (hj0 : a.getD j 0 ≠ 0) :
    ∃ V p k, residue eigvals small close order .mean b a =
        (stackVals V >>= fun r => .ok (r.map fun r => r / a.getD 0 0, p, k)) ∧ V ≠ [] ∧
      listPoly a = C (a.getD 0 0) * (p.map fun z => X - C z).prod ∧ listPoly k = listPoly b / listPoly a ∧
      ((∀ v ∈ V, v.IsScalar) ↔ (((listPoly b % listPoly a).natDegree ≠ 0 ∧
        ∃ z w, z ≠ w ∧ (listPoly a).eval z = 0 ∧ (listPoly a).eval w = 0) ∨ ∀ z, (listPoly a).rootMultiplicity z ≠ 1)) ∧
      (V.map Val.value).length = p.length ∧
      ∀ z, (listPoly a).eval z ≠ 0 →
        (listPoly b).eval z / (listPoly a).eval z = (listPoly k).eval z + pfe (V.map Val.value) p z / a.getD 0 0 := by
  obtain ⟨ps, hps, hne, hA⟩ := roots_lead hE a h0 hj hj0
  have hroot : ∀ x ∈ ps, (listPoly a).eval x = 0 := by
    intro x hx
    obtain ⟨l1, l2, rfl⟩ := List.append_of_mem hx
    rw [hA]; simp
  obtain ⟨rm, hrm, hrm0, hnod, hpos, hprod, hperm⟩ := orderedRoots_spec ho hne fun x hx y hy => hclose x y (hroot x hx) (hroot y hy)
  obtain ⟨hq, hr⟩ := quotRem small hs b a h0
  rw [← hprod] at hA
  have hA0 : listPoly a ≠ 0 := by
    rw [hA]; exact mul_ne_zero (C_ne_zero.2 h0) (prodPow_monic rm).ne_zero
  obtain ⟨V, hV, hV0, hsc, hval⟩ := computeResidues_vals small ((hs 0).2 rfl) rm hrm0 hnod hpos
    (if b.length < a.length then (([], b) : List α × List α) else polydiv small b a).2
  rw [hr] at hsc hval
  have hdeg : (listPoly b % listPoly a).degree < (prodPow rm).degree := by
    have := EuclideanDomain.mod_lt (listPoly b) hA0
    refine lt_of_lt_of_le (b := (listPoly a).degree) this (le_of_eq ?_)
    rw [hA, degree_C_mul h0]
  obtain ⟨hlen, hval⟩ := hval hdeg
  refine ⟨V, repeatPoles rm, _, ?_, hV0, ?_, hq, ?_, hlen, ?_⟩
  · unfold residue
    refine check_step ⟨List.length_pos_iff.2 hb, ?_⟩ ?_
    · by_contra h
      exact h0 (List.getD_eq_default _ _ (by omega))
    · refine bind_step hps ?_
      refine bind_step hrm ?_
      rw [hV]
      rfl
  · rw [prod_repeatPoles]; exact hA
  · rw [hsc]
    exact shape_condition hnod hpos h0 hA _
  · intro z hz
    rw [hq]
    have hz' : (prodPow rm).eval z ≠ 0 := by
      intro h
      apply hz
      rw [hA, eval_mul, h, mul_zero]
    rw [← hval z hz']
    have hsplit := congrArg (eval z) (EuclideanDomain.div_add_mod (listPoly b) (listPoly a))
    rw [eval_add, eval_mul] at hsplit
    have hAz : (listPoly a).eval z = a.getD 0 0 * (prodPow rm).eval z := by rw [hA, eval_mul, eval_C]
    rw [← hsplit, hAz]
    field_simp

end Phil.Proto
