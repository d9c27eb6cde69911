import Verif.Proof.ProtoFactors
import Verif.Spec.Pfe
import Mathlib.RingTheory.Coprime.Lemmas
import Mathlib.RingTheory.Polynomial.Basic
import Mathlib.Tactic.FieldSimp

/-! # The residues of philtorch/prototype/signal.py -/

namespace Phil.Proto
open Torch Spec Polynomial
variable {α : Type} [Field α] [DecidableEq α]

omit [Field α] [DecidableEq α] in
theorem dropSmall_head (small : α → Bool) (l : List α) {e f : α} {r : List α} (h : dropSmall small l = e :: f :: r) :
    small e = false := by
  match l with
  | [] => simp [dropSmall] at h
  | [a] => simp [dropSmall] at h
  | a :: b :: l =>
    unfold dropSmall at h
    split at h
    · exact dropSmall_head small (b :: l) h
    · rename_i hs
      rw [List.cons.injEq] at h
      rw [← h.1]
      simpa using hs

/-- Division by a monic linear polynomial: the comparison with `1e-8` plays no role. -/
theorem polydiv_mono (small : α → Bool) (h0 : small 0 = true) (u : List α) (p : α) :
    ∃ r, (polydiv small u [1, -p]).2 = [r] ∧ listPoly u = listPoly (polydiv small u [1, -p]).1 * (X - C p) + C r := by
  have hv : listPoly [1, -p] ≠ 0 := by rw [listPoly_mono]; exact X_sub_C_ne_zero p
  obtain ⟨d, hd, h1, h2, h3⟩ := polydiv_spec small h0 u [1, -p] hv
  rw [listPoly_mono, degree_X_sub_C] at h2
  rw [listPoly_mono] at h1
  cases e : (polydiv small u [1, -p]).2 with
  | nil => exact absurd e h3
  | cons a R =>
    cases R with
    | nil =>
      refine ⟨a, rfl, ?_⟩
      rw [e] at h1 h2
      rw [listPoly_concat] at h1 h2
      have h4 : listPoly d * X + C a = C a := by
        rw [eq_C_of_degree_le_zero (p := listPoly d * X + C a) (by
          rw [Nat.WithBot.lt_one_iff_le_zero] at h2; exact h2)]
        simp
      rw [h4] at h1
      exact h1
    | cons b R =>
      exfalso
      have hs : small a = false := dropSmall_head small _ e
      rw [e] at h2
      have hc := coeff_eq_zero_of_degree_lt (n := R.length + 1) (lt_of_lt_of_le h2 (by exact_mod_cast Nat.le_add_left 1 _))
      rw [coeff_listPoly, if_pos (by simp; omega), List.getD_append_right _ _ _ _ (by simp)] at hc
      have : (d ++ a :: b :: R).length - 1 - (R.length + 1) - d.length = 0 := by simp
      rw [this] at hc
      have hc : a = 0 := hc
      rw [hc, h0] at hs
      cases hs

/-- `Σ r_l (X - p)^l`. -/
noncomputable def shiftPoly (p : α) (r : List α) : α[X] := ∑ l ∈ Finset.range r.length, C (r.getD l 0) * (X - C p) ^ l

omit [DecidableEq α] in
theorem shiftPoly_cons (p a : α) (r : List α) : shiftPoly p (a :: r) = C a + shiftPoly p r * (X - C p) := by
  unfold shiftPoly
  rw [List.length_cons, Finset.sum_range_succ', Finset.sum_mul, add_comm]
  congr 1
  · simp
  · refine Finset.sum_congr rfl fun l _ => ?_
    rw [pow_succ, ← mul_assoc]; rfl

omit [DecidableEq α] in
theorem shiftPoly_degree (p : α) (r : List α) : (shiftPoly p r).degree < r.length := by
  unfold shiftPoly
  rw [← mem_degreeLT]
  refine Submodule.sum_mem _ fun l hl => ?_
  rw [mem_degreeLT]
  refine lt_of_le_of_lt (degree_mul_le_of_le degree_C_le le_rfl) ?_
  rw [degree_pow, degree_X_sub_C, nsmul_eq_mul, mul_one, zero_add]
  exact_mod_cast Finset.mem_range.1 hl

theorem residueBlock_spec (small : α → Bool) (h0 : small 0 = true) (p : α) (F : α[X]) (f : List α) (d : α) (hd : d ≠ 0)
    (hF : F = listPoly f * (X - C p) + C d) (c : Nat) : ∀ numer : List α,
    (residueBlock small [1, -p] f d c numer).length = c ∧
      ∃ Q, listPoly numer = F * shiftPoly p (residueBlock small [1, -p] f d c numer) + Q * (X - C p) ^ c := by
  induction c with
  | zero => intro numer; exact ⟨rfl, listPoly numer, by simp [residueBlock, shiftPoly]⟩
  | succ c ih =>
    intro numer
    obtain ⟨n, h1, h2⟩ := polydiv_mono small h0 numer p
    unfold residueBlock
    simp only
    obtain ⟨h3, Q, h4⟩ := ih (polysub (polydiv small numer [1, -p]).1
      (f.map fun e => (polydiv small numer [1, -p]).2.getD 0 0 / d * e))
    refine ⟨by rw [List.length_cons, h3], Q, ?_⟩
    rw [(listPoly_polysub _ _).1, listPoly_map_mul] at h4
    rw [shiftPoly_cons]
    rw [h1] at h4 ⊢
    simp only [List.getD_cons_zero] at h4 ⊢
    have hc : C (n / d) * C d = C n := by rw [← C_mul, div_mul_cancel₀ _ hd]
    rw [h2, pow_succ]
    linear_combination (X - C p) * h4 - hc - C (n / d) * hF

/-- The number in a tensor with one entry. -/
def Val.value : Val α → α
  | .scalar a => a
  | .vec l => l.getD 0 0

theorem polyval_value (p : List α) (x : α) : (polyval p (.scalar x)).value = (listPoly p).eval x := by
  by_cases h : (listPoly p).natDegree = 0
  · rw [polyval_const p _ h]
    conv_rhs => rw [eq_C_of_natDegree_eq_zero h]
    rw [eval_C]; rfl
  · rw [polyval_scalar p x h]; rfl

theorem residuesOf_spec (small : α → Bool) (h0 : small 0 = true) (numer : List α) (p : α) (m : Nat) (factor : List α)
    (hm : 0 < m) (hF : (listPoly factor).eval p ≠ 0) :
    ∃ R : List α, (residuesOf small numer p m factor).map Val.value = R.reverse ∧ R.length = m ∧
      ∃ Q, listPoly numer = listPoly factor * shiftPoly p R + Q * (X - C p) ^ m := by
  unfold residuesOf
  by_cases h : m = 1
  · subst h
    rw [if_pos rfl]
    have hval : (divVal (polyval numer (.scalar p)) (polyval factor (.scalar p))).value =
        (listPoly numer).eval p / (listPoly factor).eval p := by
      rw [← polyval_value, ← polyval_value]
      by_cases h1 : (listPoly numer).natDegree = 0 <;> by_cases h2 : (listPoly factor).natDegree = 0
      · rw [polyval_const _ _ h1, polyval_const _ _ h2]; rfl
      · rw [polyval_const _ _ h1, polyval_scalar _ _ h2]; rfl
      · rw [polyval_scalar _ _ h1, polyval_const _ _ h2]; rfl
      · rw [polyval_scalar _ _ h1, polyval_scalar _ _ h2]; rfl
    refine ⟨[(listPoly numer).eval p / (listPoly factor).eval p], ?_, rfl, ?_⟩
    · rw [List.map_singleton, hval]; rfl
    · have hroot : (X - C p) ∣ listPoly numer - listPoly factor * C ((listPoly numer).eval p / (listPoly factor).eval p) := by
        rw [dvd_iff_isRoot, IsRoot.def, eval_sub, eval_mul, eval_C]
        field_simp
        ring
      obtain ⟨Q, hQ⟩ := hroot
      refine ⟨Q, ?_⟩
      rw [shiftPoly_cons, show shiftPoly p ([] : List α) = 0 by simp [shiftPoly]]
      linear_combination hQ
  · rw [if_neg h]
    simp only
    obtain ⟨d, h1, h2⟩ := polydiv_mono small h0 factor p
    have hd : d ≠ 0 := by
      intro hd
      rw [h2, hd] at hF
      simp at hF
    obtain ⟨h3, Q, h4⟩ := residueBlock_spec small h0 p (listPoly factor) _ d hd h2 m numer
    rw [h1]
    simp only [List.getD_cons_zero]
    refine ⟨_, ?_, h3, Q, h4⟩
    rw [List.map_reverse, List.map_map]
    congr 1
    exact List.map_id _

end Phil.Proto
