import Verif.Spec.Filter
import Verif.Spec.Recur
import Mathlib.Analysis.RCLike.Basic
import Mathlib.Algebra.BigOperators.Intervals
import Mathlib.Tactic.Linarith
import Mathlib.Tactic.Ring
import Mathlib.Tactic.FieldSimp
import Mathlib.Tactic.LinearCombination

/-!
# Bounds for time-varying recursions, and growth with stable frozen coefficients
-/

namespace Phil
open Spec Finset
variable {𝕜 : Type} [RCLike 𝕜]

/-- A sum of products, with bounds on the factors. -/
theorem norm_sum_mul_le {P : Nat} {a v : Nat → 𝕜} {α : Nat → ℝ} {G : ℝ} (ha : ∀ k, k < P → ‖a k‖ ≤ α k)
    (hv : ∀ k, k < P → ‖v k‖ ≤ G) : ‖∑ k ∈ range P, a k * v k‖ ≤ (∑ k ∈ range P, α k) * G := by
  refine (norm_sum_le _ _).trans ?_
  rw [sum_mul]
  refine sum_le_sum fun k hk => ?_
  have hk := mem_range.1 hk
  rw [norm_mul]
  exact mul_le_mul (ha k hk) (hv k hk) (norm_nonneg _) ((norm_nonneg _).trans (ha k hk))

theorem bound_of_step {v : Nat → 𝕜} {N : Nat} {G : ℝ} (h : ∀ n, n < N → (∀ m, m < n → ‖v m‖ ≤ G) → ‖v n‖ ≤ G) :
    ∀ n, n < N → ‖v n‖ ≤ G := by
  intro n
  induction n using Nat.strong_induction_on with
  | _ n ih => exact fun hn => h n hn fun m hm => ih m hm (hm.trans hn)

/-- `X + r G ≤ G` for the bounds used below. -/
theorem gain_le {X r Z : ℝ} (hr : r < 1) : X + r * max (X / (1 - r)) Z ≤ max (X / (1 - r)) Z := by
  have h1 : 0 < 1 - r := by linarith
  have h2 : X / (1 - r) ≤ max (X / (1 - r)) Z := le_max_left _ _
  rw [div_le_iff₀ h1] at h2
  linarith

theorem gain_eq {X r : ℝ} (hr : r < 1) : X + r * (X / (1 - r)) = X / (1 - r) := by
  have h1 : 1 - r ≠ 0 := by linarith
  field_simp
  ring

theorem withPast_le {z v : Nat → 𝕜} {G : ℝ} {M n : Nat} {k : Int} (hz : ∀ m, m < M → ‖z m‖ ≤ G) (hv : ∀ m, m < n → ‖v m‖ ≤ G) (h1 : k < n)
    (h2 : -(M : Int) ≤ k) : ‖withPast z v k‖ ≤ G := by
  unfold withPast
  split
  · exact hz _ (by omega)
  · exact hv _ (by omega)

theorem causal_le {x : Nat → 𝕜} {G : ℝ} (hG : 0 ≤ G) {n : Nat} {k : Int} (hx : ∀ m, m < n → ‖x m‖ ≤ G) (h : k < n) : ‖causal x k‖ ≤ G := by
  unfold causal
  split
  · rwa [norm_zero]
  · exact hx _ (by omega)

/-- All-pole recursion with past. -/
theorem allpole_bound {P M N : Nat} {a : Nat → Nat → 𝕜} {z x v : Nat → 𝕜} {α : Nat → ℝ} {r X Z : ℝ} (hPM : P ≤ M)
    (hv : ∀ n, n < N → v n = x n - ∑ k ∈ range P, a n k * withPast z v ((n : Int) - 1 - k))
    (ha : ∀ n k, k < P → ‖a n k‖ ≤ α k) (hr : ∑ k ∈ range P, α k = r) (hr1 : r < 1) (hx : ∀ n, ‖x n‖ ≤ X)
    (hz : ∀ m, m < M → ‖z m‖ ≤ Z) : ∀ n, n < N → ‖v n‖ ≤ max (X / (1 - r)) Z := by
  refine bound_of_step fun n hn ih => ?_
  rw [hv n hn]
  refine (norm_sub_le _ _).trans ((add_le_add (hx n) (norm_sum_mul_le (G := max (X / (1 - r)) Z) (ha n) fun k hk => ?_)).trans ?_)
  · exact withPast_le (fun m hm => (hz m hm).trans (le_max_right _ _)) ih (by omega) (by omega)
  · rw [hr]; exact gain_le hr1

/-- All-pole recursion with the coefficients of any earlier sample, from rest. -/
theorem tallpole_bound {P N : Nat} {a : Nat → Nat → 𝕜} {x v : Nat → 𝕜} {α : Nat → ℝ} {r X : ℝ}
    (hv : ∀ n, n < N → v n = x n - ∑ k ∈ range P, if k < n then a n k * v (n - 1 - k) else 0)
    (ha : ∀ n k, k < P → ‖a n k‖ ≤ α k) (hr : ∑ k ∈ range P, α k = r) (hr1 : r < 1) (hx : ∀ n, ‖x n‖ ≤ X) :
    ∀ n, n < N → ‖v n‖ ≤ X / (1 - r) := by
  have hX : 0 ≤ X := (norm_nonneg _).trans (hx 0)
  have hG : 0 ≤ X / (1 - r) := div_nonneg hX (by linarith)
  refine bound_of_step fun n hn ih => ?_
  have e : ∑ k ∈ range P, (if k < n then a n k * v (n - 1 - k) else 0) = ∑ k ∈ range P, a n k * if k < n then v (n - 1 - k) else 0 :=
    sum_congr rfl fun k _ => by split <;> simp
  rw [hv n hn, e]
  refine (norm_sub_le _ _).trans ((add_le_add (hx n) (norm_sum_mul_le (G := X / (1 - r)) (ha n) fun k hk => ?_)).trans ?_)
  · split
    · exact ih _ (by omega)
    · rwa [norm_zero]
  · rw [hr]; exact (gain_eq hr1).le

/-- The delay line of the transposed direct form II, from rest. -/
theorem tdf2_bound {K P M : Nat} {b a : Nat → Nat → 𝕜} {x y : Nat → 𝕜} {s : Nat → Nat → 𝕜} {α β : Nat → ℝ} {r X : ℝ} (hM : M = max P (K - 1))
    (hK : 0 < K) (hM0 : 0 < M) (h0 : ∀ m, s 0 m = 0) (hy : ∀ n, y n = s n 0 + b n 0 * x n)
    (hs : ∀ n m, m < M → s (n + 1) m = ((if m + 1 < K then b n (m + 1) * x n else 0) - if m < P then a n m * y n else 0) +
      if m + 1 < M then s n (m + 1) else 0)
    (ha : ∀ n k, k < P → ‖a n k‖ ≤ α k) (hb : ∀ n j, j < K → ‖b n j‖ ≤ β j) (hr : ∑ k ∈ range P, α k = r) (hr1 : r < 1)
    (hx : ∀ n, ‖x n‖ ≤ X) : ∀ n, ‖y n‖ ≤ (∑ j ∈ range K, β j) * X / (1 - r) := by
  have hX : 0 ≤ X := (norm_nonneg _).trans (hx 0)
  set S := (∑ j ∈ range K, β j) * X with hS
  have hα : ∀ k, k < P → 0 ≤ α k := fun k hk => (norm_nonneg _).trans (ha 0 k hk)
  have hβ : ∀ j, j < K → 0 ≤ β j := fun j hj => (norm_nonneg _).trans (hb 0 j hj)
  have hS0 : 0 ≤ S := mul_nonneg (sum_nonneg fun j hj => hβ j (mem_range.1 hj)) hX
  have hG : 0 ≤ S / (1 - r) := div_nonneg hS0 (by linarith)
  set G := S / (1 - r) with hGdef
  set c : Nat → ℝ := fun k => (if k + 1 < K then β (k + 1) * X else 0) + if k < P then α k * G else 0 with hc
  have hc0 : ∀ k, 0 ≤ c k := fun k => by
    simp only [hc]
    refine add_nonneg ?_ ?_ <;> split
    · next h => exact mul_nonneg (hβ _ h) hX
    · exact le_rfl
    · next h => exact mul_nonneg (hα _ h) hG
    · exact le_rfl
  have htot : β 0 * X + ∑ k ∈ range M, c k = G := by
    have e1 : ∑ k ∈ range M, (if k + 1 < K then β (k + 1) * X else 0) = ∑ k ∈ range (K - 1), β (k + 1) * X := by
      refine (sum_subset (range_mono (show K - 1 ≤ M by omega)) fun k _ hk => ?_).symm.trans (sum_congr rfl fun k hk => ?_)
      · exact if_neg fun h => hk (mem_range.2 (by omega))
      · exact if_pos (by have := mem_range.1 hk; omega)
    have e2 : ∑ k ∈ range M, (if k < P then α k * G else 0) = r * G := by
      rw [← hr, sum_mul]
      refine (sum_subset (range_mono (show P ≤ M by omega)) fun k _ hk => ?_).symm.trans (sum_congr rfl fun k hk => ?_)
      · exact if_neg fun h => hk (mem_range.2 h)
      · exact if_pos (mem_range.1 hk)
    have e3 : S = β 0 * X + ∑ k ∈ range (K - 1), β (k + 1) * X := by
      obtain ⟨L, rfl⟩ : ∃ L, K = L + 1 := ⟨K - 1, by omega⟩
      rw [hS, sum_range_succ', add_mul, add_comm, sum_mul, Nat.add_sub_cancel]
    simp only [hc, sum_add_distrib]
    rw [e1, e2, ← add_assoc, ← e3]
    exact gain_eq hr1
  have yb : ∀ n, (∀ m, m < M → ‖s n m‖ ≤ ∑ k ∈ Ico m M, c k) → ‖y n‖ ≤ G := by
    intro n h
    rw [hy, ← htot, add_comm (β 0 * X)]
    refine (norm_add_le _ _).trans (add_le_add ((h 0 hM0).trans (by rw [← range_eq_Ico])) ?_)
    rw [norm_mul]
    exact mul_le_mul (hb n 0 hK) (hx n) (norm_nonneg _) (hβ 0 hK)
  have sb : ∀ n m, m < M → ‖s n m‖ ≤ ∑ k ∈ Ico m M, c k := by
    intro n
    induction n with
    | zero => intro m _; rw [h0, norm_zero]; exact sum_nonneg fun k _ => hc0 k
    | succ n ih =>
      intro m hm
      rw [hs n m hm, sum_eq_sum_Ico_succ_bot hm]
      refine (norm_add_le _ _).trans (add_le_add ((norm_sub_le _ _).trans ?_) ?_)
      · simp only [hc]
        refine add_le_add ?_ ?_ <;> split
        · next h => rw [norm_mul]; exact mul_le_mul (hb n _ h) (hx n) (norm_nonneg _) (hβ _ h)
        · exact norm_zero.le
        · next h => rw [norm_mul]; exact mul_le_mul (ha n _ h) (yb n ih) (norm_nonneg _) (hα _ h)
        · exact norm_zero.le
      · split
        · next h => exact ih _ h
        · rw [norm_zero]; exact sum_nonneg fun k _ => hc0 k
  exact fun n => yb n (sb n)

/-- States of a contraction in the maximum norm. -/
theorem vecRec_bound {M : Nat} {A : Nat → Nat → Nat → 𝕜} {z : Nat → 𝕜} {x : Nat → Nat → 𝕜} {r X Z : ℝ} (hr : r < 1)
    (hA : ∀ t i, i < M → ∑ j ∈ range M, ‖A t i j‖ ≤ r) (hx : ∀ t i, ‖x t i‖ ≤ X) (hz : ∀ i, i < M → ‖z i‖ ≤ Z) (t : Nat) :
    ∀ i, i < M → ‖vecRec M A z x t i‖ ≤ r ^ t * Z + X / (1 - r) := by
  have hX : 0 ≤ X := (norm_nonneg _).trans (hx 0 0)
  have h1 : 0 < 1 - r := by linarith
  induction t with
  | zero =>
    intro i hi
    rw [pow_zero, one_mul]
    exact (hz i hi).trans (le_add_of_nonneg_right (div_nonneg hX h1.le))
  | succ t ih =>
    intro i hi
    have hG : 0 ≤ r ^ t * Z + X / (1 - r) := (norm_nonneg _).trans (ih i hi)
    have e : r * (r ^ t * Z + X / (1 - r)) + X = r ^ (t + 1) * Z + X / (1 - r) := by
      rw [mul_add, pow_succ, add_assoc, add_comm (r * (X / (1 - r))), gain_eq hr]; ring
    rw [← e]
    simp only [vecRec]
    refine (norm_add_le _ _).trans (add_le_add ((norm_sum_mul_le (α := fun j => ‖A t i j‖) (fun _ _ => le_rfl)
      fun k hk => ih k hk).trans ?_) (hx t i))
    exact mul_le_mul_of_nonneg_right (hA t i hi) hG

/-! ## Frozen stability is not enough -/

/-- Coefficients that alternate between `(3/2, 3/4)` and `(-3/2, 3/4)`. -/
noncomputable def alternating (n k : Nat) : ℝ := if k = 0 then (-1) ^ n * (3 / 2) else 3 / 4

theorem alternating_grows {N : Nat} {x y : Nat → ℝ} (hx : ∀ n, x n = if n = 0 then 1 else 0)
    (hy : ∀ n, n < N → y n = x n - ∑ k ∈ range 2, alternating n k * causal y ((n : Int) - 1 - k)) :
    ∀ n, n < N → (3 / 2 : ℝ) ^ n ≤ |y n| := by
  have hs : ∀ n : Nat, ((-1 : ℝ) ^ n) ^ 2 = 1 := fun n => by rw [← pow_mul, mul_comm, pow_mul]; norm_num
  have e0 : 0 < N → y 0 = 1 := fun h => by
    have := hy 0 h
    simpa [sum_range_succ, causal, hx] using this
  have e1 : 1 < N → y 1 = -((-1) ^ 1 * (3 / 2)) * y 0 := fun h => by
    have := hy 1 h
    simpa [sum_range_succ, causal, hx, alternating] using this
  have e2 : ∀ n, n + 2 < N → y (n + 2) = -((-1) ^ (n + 2) * (3 / 2)) * y (n + 1) - 3 / 4 * y n := fun n h => by
    have := hy (n + 2) h
    rw [sum_range_succ, sum_range_one, hx, if_neg (by omega)] at this
    have c1 : causal y (((n + 2 : Nat) : Int) - 1 - (0 : Nat)) = y (n + 1) := by
      unfold causal; rw [if_neg (by omega)]; congr 1; omega
    have c2 : causal y (((n + 2 : Nat) : Int) - 1 - (1 : Nat)) = y n := by
      unfold causal; rw [if_neg (by omega)]; congr 1; omega
    rw [c1, c2] at this
    simp only [alternating, if_true, one_ne_zero, if_false] at this
    rw [this]; ring
  have key : ∀ n, n + 1 < N → 9 / 4 * y n ^ 2 ≤ y (n + 1) ^ 2 ∧ 0 ≤ (-1) ^ (n + 2) * (y (n + 1) * y n) := by
    intro n
    induction n with
    | zero =>
      intro h
      rw [e1 h, e0 (by omega)]
      norm_num
    | succ n ih =>
      intro h
      obtain ⟨h1, h2⟩ := ih (by omega)
      have h3 := e2 n (by omega)
      have h4 := hs (n + 2)
      have h5 : (-1 : ℝ) ^ (n + 1 + 2) = -(-1) ^ (n + 2) := by rw [show n + 1 + 2 = n + 2 + 1 by omega, pow_succ]; ring
      rw [show n + 1 + 1 = n + 2 by omega, h5]
      generalize (-1 : ℝ) ^ (n + 2) = σ at *
      constructor
      · have : y (n + 2) ^ 2 = 9 / 4 * (σ ^ 2 * y (n + 1) ^ 2) + 9 / 4 * (σ * (y (n + 1) * y n)) + 9 / 16 * y n ^ 2 := by rw [h3]; ring
        rw [this, h4]
        nlinarith [sq_nonneg (y n)]
      · have : -σ * (y (n + 2) * y (n + 1)) = 3 / 2 * (σ ^ 2 * y (n + 1) ^ 2) + 3 / 4 * (σ * (y (n + 1) * y n)) := by rw [h3]; ring
        rw [this, h4]
        nlinarith [sq_nonneg (y (n + 1))]
  intro n
  induction n with
  | zero => intro h; rw [e0 h]; norm_num
  | succ n ih =>
    intro h
    have h1 := ih (by omega)
    have h2 := (key n h).1
    have h3 : (3 / 2 * |y n|) ^ 2 ≤ |y (n + 1)| ^ 2 := by rw [mul_pow, sq_abs, sq_abs]; linarith
    have h4 : 3 / 2 * |y n| ≤ |y (n + 1)| := abs_le_of_sq_le_sq' h3 (abs_nonneg _) |>.2
    rw [pow_succ]
    linarith

end Phil
