import Verif.Proof.ProtoTaylor
import Verif.Proof.ProtoUniqueSum
import Mathlib.Algebra.Polynomial.Lifts

/-! # `sos2pfe`, philtorch/prototype/signal.py:172-373: residues of the ordered poles -/

namespace Phil.Proto
open Torch Spec Polynomial
variable {α : Type} [Field α] [DecidableEq α]

local notation:max l "⟪" i "⟫" => List.getD l i (0, 0, false)

/-- Poles and multiplicities. -/
def polesOf (l : List (α × Nat × Bool)) : List (α × Nat) := l.map fun x => (x.1, x.2.1)

/-- The product over the poles other than `i`. -/
noncomputable def othersPoly (l : List (α × Nat × Bool)) (i : Nat) : α[X] :=
  ((List.range l.length).map fun j => (X - C (l⟪j⟫).1) ^ (if j = i then 0 else (l⟪j⟫).2.1)).prod

omit [DecidableEq α] in
theorem prod_range_list {M : Type} [CommMonoid M] (n : Nat) (f : Nat → M) :
    ((List.range n).map f).prod = ∏ j ∈ Finset.range n, f j := by
  induction n with
  | zero => rfl
  | succ n ih => rw [List.range_succ, List.map_append, List.prod_append, ih, Finset.prod_range_succ]; simp

omit [Field α] [DecidableEq α] in
theorem map_range_getD {β : Type} [Zero α] (l : List (α × Nat × Bool)) (f : α × Nat × Bool → β) :
    (List.range l.length).map (fun j => f (l⟪j⟫)) = l.map f := by
  refine List.ext_getElem (by simp) fun i h1 h2 => ?_
  rw [List.getElem_map, List.getElem_map, List.getElem_range, List.getD_eq_getElem _ _ (by simpa using h2)]

omit [DecidableEq α] in
theorem othersPoly_mul (l : List (α × Nat × Bool)) (i : Nat) (hi : i < l.length) :
    othersPoly l i * (X - C (l⟪i⟫).1) ^ (l⟪i⟫).2.1 = prodPow (polesOf l) := by
  have h1 : prodPow (polesOf l) = ∏ j ∈ Finset.range l.length, (X - C (l⟪j⟫).1) ^ (l⟪j⟫).2.1 := by
    rw [prodPow, polesOf, List.map_map, ← prod_range_list, map_range_getD l fun x => (X - C x.1) ^ x.2.1]
    rfl
  rw [h1, othersPoly, prod_range_list, ← Finset.mul_prod_erase _ _ (Finset.mem_range.2 hi),
    ← Finset.mul_prod_erase (Finset.range l.length) (fun j => (X - C (l⟪j⟫).1) ^ (l⟪j⟫).2.1) (Finset.mem_range.2 hi),
    if_pos rfl, pow_zero, one_mul, mul_comm]
  congr 1
  exact Finset.prod_congr rfl fun j hj => by rw [if_neg (Finset.ne_of_mem_erase hj)]

omit [DecidableEq α] in
theorem mem_polesOf (l : List (α × Nat × Bool)) (i : Nat) (hi : i < l.length) : ((l⟪i⟫).1, (l⟪i⟫).2.1) ∈ polesOf l := by
  rw [List.getD_eq_getElem _ _ hi]
  exact List.mem_map.2 ⟨l[i], List.getElem_mem hi, rfl⟩

/-- The numerator of the product of the normalised sections. -/
noncomputable def numerPoly (sos : List (Section α)) : α[X] := (sos.map fun s => X ^ 2 + C s.nb1 * X + C s.nb2).prod

omit [DecidableEq α] in
theorem numerPoly_monic (sos : List (Section α)) : (numerPoly sos).Monic ∧ (numerPoly sos).natDegree = 2 * sos.length := by
  induction sos with
  | nil => exact ⟨monic_one, by simp [numerPoly]⟩
  | cons s sos ih =>
    have h1 : (X ^ 2 + C s.nb1 * X + C s.nb2 : α[X]).Monic := by monicity!
    have h2 : (X ^ 2 + C s.nb1 * X + C s.nb2 : α[X]).natDegree = 2 := by compute_degree!
    have e : numerPoly (s :: sos) = (X ^ 2 + C s.nb1 * X + C s.nb2) * numerPoly sos := by
      rw [numerPoly, List.map_cons, List.prod_cons]; rfl
    rw [e]
    exact ⟨h1.mul ih.1, by rw [h1.natDegree_mul ih.1, h2, ih.2, List.length_cons]; omega⟩

omit [DecidableEq α] in
theorem listPoly_section (s : Section α) : listPoly [1, s.nb1, s.nb2] = X ^ 2 + C s.nb1 * X + C s.nb2 := by
  rw [listPoly_cons, listPoly_cons, listPoly_singleton]; simp; ring

theorem numerator_spec (sos : List (Section α)) (h : sos ≠ []) :
    ∃ n, polysmul (sos.map fun s => [1, s.nb1, s.nb2]) = .ok n ∧ listPoly n = numerPoly sos := by
  obtain ⟨n, h1, h2⟩ := polysmul_spec (sos.map fun s => [1, s.nb1, s.nb2]) (by simpa using h)
  refine ⟨n, h1, ?_⟩
  rw [h2, List.map_map, numerPoly]
  exact congrArg List.prod (List.map_congr_left fun s _ => listPoly_section s)

omit [DecidableEq α] in
theorem simpleResidue_eq (sos : List (Section α)) (l : List (α × Nat × Bool)) (i : Nat) :
    simpleResidue sos l i = (numerPoly sos).eval (l⟪i⟫).1 / (othersPoly l i).eval (l⟪i⟫).1 := by
  unfold simpleResidue numerPoly othersPoly
  simp only [← coe_evalRingHom, map_list_prod, List.map_map]
  congr 2
  · exact List.map_congr_left fun s _ => by simp; ring
  · exact List.map_congr_left fun j _ => by simp only [Function.comp, coe_evalRingHom, eval_pow, eval_sub, eval_X, eval_C]

/-- The positions of the repeated poles. -/
def repeatedAt (l : List (α × Nat × Bool)) : List Nat := (List.range l.length).filter fun i => 1 < (l⟪i⟫).2.1

/-- The positions of the simple poles. -/
def simpleAt (l : List (α × Nat × Bool)) : List Nat := (List.range l.length).filter fun i => !decide (1 < (l⟪i⟫).2.1)

omit [Field α] [DecidableEq α] in
theorem prod_filter_split {M β : Type} [CommMonoid M] (l : List β) (q : β → Bool) (f : β → M) :
    ((l.filter fun x => !q x).map f).prod * ((l.filter q).map f).prod = (l.map f).prod := by
  induction l with
  | nil => simp
  | cons x l ih =>
    cases h : q x
    · rw [List.filter_cons_of_pos (by simp [h]), List.filter_cons_of_neg (by simp [h]), List.map_cons, List.prod_cons, List.map_cons,
        List.prod_cons, mul_assoc, ih]
    · rw [List.filter_cons_of_neg (by simp [h]), List.filter_cons_of_pos (by simp [h]), List.map_cons, List.prod_cons, List.map_cons,
        List.prod_cons, mul_left_comm, ih]

/-- The denominator used for the repeated pole `i`. -/
theorem denominator_spec (l : List (α × Nat × Bool)) (hpos : ∀ i < l.length, 0 < (l⟪i⟫).2.1) :
    ∃ s, (if simpleAt l = [] then .ok [1] else polysmul ((simpleAt l).map fun j => [1, -(l⟪j⟫).1])) = .ok s ∧
      ∀ i ∈ repeatedAt l, ∃ dd,
        (if ((repeatedAt l).flatMap fun j => List.replicate (if j = i then 0 else (l⟪j⟫).2.1) [1, -(l⟪j⟫).1]) = [] then .ok [1]
          else polysmul ((repeatedAt l).flatMap fun j => List.replicate (if j = i then 0 else (l⟪j⟫).2.1) [1, -(l⟪j⟫).1])) = .ok dd ∧
        listPoly (polymul s dd) = othersPoly l i := by
  have hs : ∃ s, (if simpleAt l = [] then .ok [1] else polysmul ((simpleAt l).map fun j => [1, -(l⟪j⟫).1])) = (.ok s : Res (List α)) ∧
      listPoly s = ((simpleAt l).map fun j => X - C (l⟪j⟫).1).prod := by
    by_cases h : simpleAt l = []
    · exact ⟨[1], by rw [if_pos h], by rw [h, listPoly_one]; rfl⟩
    · rw [if_neg h]
      obtain ⟨s, h1, h2⟩ := polysmul_spec ((simpleAt l).map fun j => [1, -(l⟪j⟫).1]) (by simpa using h)
      refine ⟨s, h1, ?_⟩
      rw [h2, List.map_map]
      exact congrArg List.prod (List.map_congr_left fun j _ => listPoly_mono _)
  obtain ⟨s, hs1, hs2⟩ := hs
  refine ⟨s, hs1, fun i hi => ?_⟩
  have hprod : (((repeatedAt l).flatMap fun j => List.replicate (if j = i then 0 else (l⟪j⟫).2.1) [1, -(l⟪j⟫).1]).map listPoly).prod =
      ((repeatedAt l).map fun j => (X - C (l⟪j⟫).1) ^ (if j = i then 0 else (l⟪j⟫).2.1)).prod := by
    generalize repeatedAt l = rep
    induction rep with
    | nil => rfl
    | cons j rep ih =>
      rw [List.flatMap_cons, List.map_append, List.prod_append, ih, List.map_replicate, List.prod_replicate, listPoly_mono,
        List.map_cons, List.prod_cons]
  have hdd : ∃ dd, (if ((repeatedAt l).flatMap fun j => List.replicate (if j = i then 0 else (l⟪j⟫).2.1) [1, -(l⟪j⟫).1]) = [] then .ok [1]
      else polysmul ((repeatedAt l).flatMap fun j => List.replicate (if j = i then 0 else (l⟪j⟫).2.1) [1, -(l⟪j⟫).1])) =
        (.ok dd : Res (List α)) ∧
      listPoly dd = ((repeatedAt l).map fun j => (X - C (l⟪j⟫).1) ^ (if j = i then 0 else (l⟪j⟫).2.1)).prod := by
    rw [← hprod]
    generalize ((repeatedAt l).flatMap fun j => List.replicate (if j = i then 0 else (l⟪j⟫).2.1) [1, -(l⟪j⟫).1]) = L
    by_cases h : L = []
    · exact ⟨[1], by rw [if_pos h], by rw [h, listPoly_one]; rfl⟩
    · rw [if_neg h]
      exact polysmul_spec L h
  obtain ⟨dd, hd1, hd2⟩ := hdd
  refine ⟨dd, hd1, ?_⟩
  rw [listPoly_polymul, hs2, hd2, othersPoly, ← prod_filter_split (List.range l.length) fun j => decide (1 < (l⟪j⟫).2.1)]
  congr 2
  refine List.map_congr_left fun j hj => ?_
  have hj' := List.mem_filter.1 hj
  have h1 := hpos j (List.mem_range.1 hj'.1)
  have h2 : ¬ 1 < (l⟪j⟫).2.1 := by simpa using hj'.2
  have h3 : j ≠ i := by
    rintro rfl
    exact h2 (by simpa using (List.mem_filter.1 hi).2)
  rw [if_neg h3, show (l⟪j⟫).2.1 = 1 by omega, pow_one]

end Phil.Proto
