import Verif.Model.Poly
import Verif.Spec.Poly
import Verif.Spec.Filter
import Verif.Torch.Loop
import Verif.Proof.FilterStream
import Mathlib.Algebra.Polynomial.Coeff
import Mathlib.Algebra.Polynomial.Degree.Lemmas
import Mathlib.Tactic.Ring
import Mathlib.Tactic.LinearCombination

/-! # Polynomial long division -/

namespace Spec
open Finset Polynomial
variable {α : Type} [Field α]

/-- Remainder after `k` rounds of long division of `u` by `v` (degree `n`). -/
def divRem (n : Nat) (v u : Nat → α) : Nat → Nat → α
  | 0 => u
  | k + 1 => fun t => if k ≤ t ∧ t < k + n + 1 then divRem n v u k t - (v 0)⁻¹ * divRem n v u k k * v (t - k)
      else divRem n v u k t

/-- Quotient coefficient of round `k`. -/
def divQuo (n : Nat) (v u : Nat → α) (k : Nat) : α := (v 0)⁻¹ * divRem n v u k k

theorem divRem_zero {n : Nat} {v : Nat → α} (hv : v 0 ≠ 0) (u : Nat → α) {k t : Nat} (h : t < k) :
    divRem n v u k t = 0 := by
  induction k with
  | zero => omega
  | succ k ih =>
    rw [divRem]
    beta_reduce
    by_cases htk : t = k
    · subst htk
      rw [if_pos (by omega), Nat.sub_self]
      field_simp; ring
    · rw [if_neg (by omega)]; exact ih (by omega)

theorem descPoly_shift (n m k : Nat) (h : k + n ≤ m) (d : α) (v : Nat → α) :
    C d * X ^ (m - n - k) * descPoly (n + 1) v =
      ∑ t ∈ range (m + 1), C (if k ≤ t ∧ t < k + n + 1 then d * v (t - k) else 0) * X ^ (m - t) := by
  rw [show m + 1 = k + ((n + 1) + (m - k - n)) by omega, sum_range_add, sum_range_add]
  rw [sum_eq_zero (s := range k), sum_eq_zero (s := range (m - k - n)), zero_add, add_zero, descPoly, mul_sum]
  · refine sum_congr rfl fun i hi => ?_
    have hi := mem_range.1 hi
    rw [if_pos (by omega), show k + i - k = i by omega, C_mul]
    rw [show m - (k + i) = (m - n - k) + (n + 1 - 1 - i) by omega, pow_add]
    ring
  · intro i hi
    rw [if_neg (by omega), C_0, zero_mul]
  · intro i hi
    have hi := mem_range.1 hi
    rw [if_neg (by omega), C_0, zero_mul]

theorem divRem_step (n m k : Nat) (h : k + n ≤ m) (v u : Nat → α) :
    descPoly (m + 1) (divRem n v u k) = C (divQuo n v u k) * X ^ (m - n - k) * descPoly (n + 1) v +
      descPoly (m + 1) (divRem n v u (k + 1)) := by
  rw [descPoly_shift n m k h, descPoly, descPoly, ← sum_add_distrib]
  refine sum_congr rfl fun t _ => ?_
  rw [Nat.add_sub_cancel, ← add_mul, ← C_add]
  congr 2
  simp only [divRem, divQuo]
  split <;> ring

theorem divRem_sum (n m : Nat) (v u : Nat → α) (k : Nat) (h : k + n ≤ m + 1) :
    descPoly (m + 1) u = (∑ j ∈ range k, C (divQuo n v u j) * X ^ (m - n - j)) * descPoly (n + 1) v +
      descPoly (m + 1) (divRem n v u k) := by
  induction k with
  | zero => simp [divRem]
  | succ k ih =>
    rw [ih (by omega), divRem_step n m k (by omega), sum_range_succ]
    ring

/-- Long division divides. -/
theorem divRem_spec {n m : Nat} (hnm : n ≤ m) {v : Nat → α} (hv : v 0 ≠ 0) (u : Nat → α) :
    descPoly (m + 1) u = descPoly (m - n + 1) (divQuo n v u) * descPoly (n + 1) v +
      descPoly n fun t => divRem n v u (m - n + 1) (m - n + 1 + t) := by
  rw [divRem_sum n m v u (m - n + 1) (by omega)]
  have h1 : (∑ j ∈ range (m - n + 1), C (divQuo n v u j) * X ^ (m - n - j)) = descPoly (m - n + 1) (divQuo n v u) := by
    rw [descPoly, Nat.add_sub_cancel]
  have h2 : descPoly (m + 1) (divRem n v u (m - n + 1)) =
      descPoly n fun t => divRem n v u (m - n + 1) (m - n + 1 + t) := by
    rw [descPoly, Nat.add_sub_cancel, show m + 1 = (m - n + 1) + n by omega, sum_range_add, sum_eq_zero, zero_add, descPoly]
    · refine sum_congr rfl fun t ht => ?_
      have ht := mem_range.1 ht
      rw [show m - (m - n + 1 + t) = n - 1 - t by omega]
    · intro t ht
      rw [divRem_zero hv u (mem_range.1 ht), C_0, zero_mul]
  rw [h1, h2]

theorem descPoly_degree (n : Nat) (c : Nat → α) : (descPoly n c).degree < n := by
  rw [degree_lt_iff_coeff_zero]
  intro k hk
  rw [descPoly, finsetSum_coeff]
  refine sum_eq_zero fun i hi => ?_
  have := mem_range.1 hi
  rw [coeff_C_mul_X_pow, if_neg (by omega)]

theorem descPoly_degree_eq (n : Nat) {c : Nat → α} (h : c 0 ≠ 0) : (descPoly (n + 1) c).degree = n := by
  refine le_antisymm ?_ ?_
  · rw [degree_le_iff_coeff_zero]
    intro k hk
    have hk : n < k := by exact_mod_cast hk
    exact (degree_lt_iff_coeff_zero _ _).1 (descPoly_degree (n + 1) c) k hk
  · refine le_degree_of_ne_zero ?_
    rw [descPoly, finsetSum_coeff, sum_range_succ', sum_eq_zero, zero_add, coeff_C_mul_X_pow, if_pos (by omega)]
    · exact h
    · intro i hi
      have := mem_range.1 hi
      rw [coeff_C_mul_X_pow, if_neg (by omega)]

end Spec

namespace Phil.Poly
open Torch Torch.Tensor Spec
variable {α : Type} [Field α]

/-- One value per batch item, a 0-D tensor if there is no batch axis. -/
def column (flat : Bool) (B : Nat) (d : Nat → α) : Tensor α := if flat then t0 (d 0) else t1 B d

theorem sliceSub_eq {f : Bool} {B m k n : Nat} (r w : Nat → Nat → α) (h : k + n ≤ m) :
    sliceSub (packed f B (m + 1) r) k ((k : Int) + n + 1) (packed f B (n + 1) w) =
      .ok (packed f B (m + 1) fun i t => if k ≤ t ∧ t < k + n + 1 then r i t - w i (t - k) else r i t) := by
  have e : (k : Int) + n + 1 = ((k + n + 1 : Nat) : Int) := by push_cast; ring
  rw [e]
  have h1 : pyStop (m + 1) (some ((k + n + 1 : Nat) : Int)) = k + n + 1 := by rw [pyStop_nat]; omega
  have h2 : pyStart (m + 1) (some ((k : Nat) : Int)) = k := by rw [pyStart_nat]; omega
  have h3 : pyStop (m + 1) (some ((k : Nat) : Int)) = k := by rw [pyStop_nat]; omega
  have h4 : pyStart (m + 1) (some ((k + n + 1 : Nat) : Int)) = k + n + 1 := by rw [pyStart_nat]; omega
  have h5 : k + n + 1 - k = n + 1 := by omega
  unfold sliceSub
  cases f with
  | true =>
    simp only [packed, if_true]
    refine bind_step (slice_t1_n1 _ _ _ _) ?_
    rw [h1, h2, h5]
    refine bind_step (zipWith_n_n _ _ _ _) ?_
    refine check_step (by simp) ?_
    refine bind_step (slice_t1_n1 _ _ _ _) (bind_step (slice_t1_n1 _ _ _ _) ?_)
    rw [h3, h4, pyStart_none, pyStop_none]
    refine bind_step (cat2_t1_n1 _ _ _ _) ?_
    rw [cat2_t1_n1]
    refine congrArg Except.ok (t1_congr (by omega) fun t ht => ?_)
    by_cases c1 : t < k
    · rw [if_pos (by omega), if_pos (by omega), if_neg (by omega)]; rfl
    · by_cases c2 : t < k + n + 1
      · rw [if_pos (by omega), if_neg (by omega), if_pos (by omega)]
        congr 2; omega
      · rw [if_neg (by omega), if_neg (by omega)]; congr 1; omega
  | false =>
    simp only [packed]
    rw [if_neg (by simp), if_neg (by simp), if_neg (by simp)]
    refine bind_step (slice_t2_n1 _ _ _ _ _) ?_
    rw [h1, h2, h5]
    refine bind_step (zipWith_nm_nm _ _ _ _ _) ?_
    refine check_step (by simp) ?_
    refine bind_step (slice_t2_n1 _ _ _ _ _) (bind_step (slice_t2_n1 _ _ _ _ _) ?_)
    rw [h3, h4, pyStart_none, pyStop_none]
    refine bind_step (cat2_t2_n1 _ _ _ _ _) ?_
    rw [cat2_t2_n1]
    refine congrArg Except.ok (t2_congr rfl (by omega) fun i t hi ht => ?_)
    by_cases c1 : t < k
    · rw [if_pos (by omega), if_pos (by omega), if_neg (by omega)]; rfl
    · by_cases c2 : t < k + n + 1
      · rw [if_pos (by omega), if_neg (by omega), if_pos (by omega)]
        congr 2; omega
      · rw [if_neg (by omega), if_neg (by omega)]; congr 1; omega

/-- `v[..., 0].reciprocal()` as a tensor. -/
theorem scale_eq {B K : Nat} {f : Bool} {v : Tensor α} {vv : Nat → Nat → α} (hv : Divisor B K f v vv) (hK : 0 < K) :
    ∃ s, (select v (-1) 0 = .ok s) ∧ ∀ (m : Nat) (k : Nat) (r : Nat → Nat → α), k < m →
      (do let rk ← select (packed f B m r) (-1) (k : Int)
          mul (map (fun a => a⁻¹) s) rk) = .ok (column f B fun i => (vv i 0)⁻¹ * r i k) := by
  cases hv with
  | flat v =>
    refine ⟨_, select_t1_n1_0 _ _ hK, fun m k r hk => ?_⟩
    simp only [packed, column, if_true]
    refine bind_step (select_t1_n1_nat _ _ _ hk) ?_
    rw [map_t0]; exact zipWith_s_s _ _ _
  | shared v =>
    refine ⟨_, select_t1_n1_0 _ _ hK, fun m k r hk => ?_⟩
    simp only [packed, column]
    rw [if_neg (by simp), if_neg (by simp)]
    refine bind_step (select_t2_n1_nat _ _ _ _ hk) ?_
    rw [map_t0]; exact zipWith_s_n _ _ _ _
  | batched v =>
    refine ⟨_, select_t2_n1_0 _ _ _ hK, fun m k r hk => ?_⟩
    simp only [packed, column]
    rw [if_neg (by simp), if_neg (by simp)]
    refine bind_step (select_t2_n1_nat _ _ _ _ hk) ?_
    rw [map_t1]; exact zipWith_n_n _ _ _ _

theorem outer_eq {B K : Nat} {f : Bool} {v : Tensor α} {vv : Nat → Nat → α} (hv : Divisor B K f v vv) (d : Nat → α) :
    (do let d1 ← unsqueeze (column f B d) (-1)
        mul d1 v) = .ok (packed f B K fun i t => d i * vv i t) := by
  cases hv with
  | flat v =>
    simp only [packed, column, if_true]
    refine bind_step (unsqueeze_t0_n1 _) ?_
    exact zipWith_1_n _ _ _ _
  | shared v =>
    simp only [packed, column]
    rw [if_neg (by simp), if_neg (by simp)]
    refine bind_step (unsqueeze_t1_n1 _ _) ?_
    exact zipWith_n1_m _ _ _ _ _
  | batched v =>
    simp only [packed, column]
    rw [if_neg (by simp), if_neg (by simp)]
    refine bind_step (unsqueeze_t1_n1 _ _) ?_
    exact zipWith_n1_nm _ _ _ _ _

theorem polydivLoop_eq {B n m : Nat} {f : Bool} {v s : Tensor α} {vv : Nat → Nat → α} (hv : Divisor B (n + 1) f v vv)
    (hs : select v (-1) 0 = .ok s) (u : Nat → Nat → α) (c : Nat) : ∀ k, k + c + n ≤ m + 1 →
    polydivLoop v (map (fun a => a⁻¹) s) n c k (packed f B (m + 1) fun i => divRem n (vv i) (u i) k) =
      .ok ((List.range c).map fun j => column f B fun i => divQuo n (vv i) (u i) (k + j),
        packed f B (m + 1) fun i => divRem n (vv i) (u i) (k + c)) := by
  induction c with
  | zero => intro k _; rfl
  | succ c ih =>
    intro k hk
    obtain ⟨s', hs', hd⟩ := scale_eq hv (Nat.succ_pos n)
    obtain rfl : s' = s := by rw [hs] at hs'; cases hs'; rfl
    have hd := hd (m + 1) k (fun i => divRem n (vv i) (u i) k) (by omega)
    unfold polydivLoop
    have key : ∀ {β : Type} (g : Tensor α → Res β) , (do
        let rk ← select (packed f B (m + 1) fun i => divRem n (vv i) (u i) k) (-1) (k : Int)
        let d ← mul (map (fun a => a⁻¹) s') rk
        g d) = g (column f B fun i => divQuo n (vv i) (u i) k) := by
      intro β g
      rw [show (column f B fun i => divQuo n (vv i) (u i) k) = column f B fun i => (vv i 0)⁻¹ * divRem n (vv i) (u i) k k
        from rfl]
      rw [← bind_assoc, hd]; rfl
    rw [key]
    have ho := outer_eq hv fun i => divQuo n (vv i) (u i) k
    rw [← bind_assoc, ho]
    refine bind_step rfl ?_
    refine bind_step (sliceSub_eq _ _ (by omega)) ?_
    have e : (packed f B (m + 1) fun i t => if k ≤ t ∧ t < k + n + 1 then
        divRem n (vv i) (u i) k t - divQuo n (vv i) (u i) k * vv i (t - k) else divRem n (vv i) (u i) k t) =
        packed f B (m + 1) fun i => divRem n (vv i) (u i) (k + 1) := rfl
    rw [e, ih (k + 1) (by omega)]
    refine bind_step rfl ?_
    rw [pure_eq_ok]
    refine congrArg Except.ok (Prod.ext ?_ ?_)
    · simp only
      rw [List.range_succ_eq_map, List.map_cons, List.map_map]
      congr 1
      refine List.map_congr_left fun j _ => ?_
      simp only [Function.comp]
      rw [show k + 1 + j = k + (j + 1) by omega]
    · simp only
      rw [show k + 1 + c = k + (c + 1) by omega]

theorem polydiv_eq {B n m : Nat} {f : Bool} {v : Tensor α} {vv : Nat → Nat → α} (hv : Divisor B (n + 1) f v vv)
    (u : Nat → Nat → α) (hnm : n ≤ m) :
    polydiv (packed f B (m + 1) u) v = .ok (packed f B (m - n + 1) fun i => divQuo n (vv i) (u i),
      packed f B n fun i t => divRem n (vv i) (u i) (m - n + 1) (m - n + 1 + t)) := by
  obtain ⟨s, hs, _⟩ := scale_eq hv (Nat.succ_pos n)
  have hvs : v.size (-1) = n + 1 ∧ 1 ≤ v.rank := by cases hv <;> simp
  have hus : (packed f B (m + 1) u).size (-1) = m + 1 ∧ 1 ≤ (packed f B (m + 1) u).rank := by
    cases f <;> simp [packed]
  unfold polydiv
  refine check_step ⟨hus.2, hvs.2⟩ ?_
  rw [hus.1, hvs.1]
  refine bind_step hs ?_
  simp only
  rw [show ((m + 1 : Nat) : Int) - 1 - (((n + 1 : Nat) : Int) - 1) + 1 = ((m - n + 1 : Nat) : Int) by push_cast; omega,
    Int.toNat_natCast, show ((n + 1 : Nat) : Int) - 1 = n by push_cast; ring]
  have hl := polydivLoop_eq hv hs u (m - n + 1) (m := m) 0 (by omega)
  refine bind_step hl ?_
  simp only [Nat.zero_add]
  have hp : pyStart (m + 1) (some ((m - n + 1 : Nat) : Int)) = m - n + 1 := by rw [pyStart_nat]; omega
  cases f with
  | true =>
    simp only [packed, column, if_true]
    refine bind_step (slice_t1_n1 _ _ _ _) ?_
    rw [hp, pyStop_none]
    refine bind_step (stack_t0_n1 _ _ (by omega)) ?_
    refine Phil.Lti.ok_pair rfl (t1_congr (by omega) fun t ht => ?_)
    rw [Nat.add_comm t]
  | false =>
    simp only [packed, column]
    simp only [Bool.false_eq_true, if_false]
    refine bind_step (slice_t2_n1 _ _ _ _ _) ?_
    rw [hp, pyStop_none]
    refine bind_step (stack_t1_n1 _ _ _ (by omega)) ?_
    refine Phil.Lti.ok_pair rfl (t2_congr rfl (by omega) fun i t hi ht => ?_)
    rw [Nat.add_comm t]

end Phil.Poly
