import Verif.Model.LtiDiagFilter
import Verif.Proof.LtiFiltering
import Verif.Proof.Companion
import Verif.Proof.Poly
import Verif.Spec.Eigen
import Mathlib.Data.Finset.Card

/-! # Filters run in the eigenbasis of the companion matrix -/

namespace Spec
open Finset Polynomial

section
variable {α : Type} [Field α]

/-- The powers of a pole form an eigenvector of the companion matrix. -/
theorem comp_eigenvector {P : Nat} (hP : 0 < P) {a : Nat → α} {p : α} (h : p ^ P + ∑ k ∈ range P, a k * p ^ (P - 1 - k) = 0) :
    Eigenvector P (comp a) p fun i => p ^ (P - 1 - i) := by
  refine ⟨⟨P - 1, by omega, by simp⟩, fun i hi => ?_⟩
  rw [Phil.Mat.comp_mul_powers a p h hi, mul_comm]

/-- Eigenvectors of the companion matrix for a non-zero eigenvalue do not start with zero. -/
theorem comp_eigenvector_first {P : Nat} {a : Nat → α} {c : α} (hc : c ≠ 0) {v : Nat → α} (h : Eigenvector P (comp a) c v) : v 0 ≠ 0 := by
  intro h0
  obtain ⟨⟨i, hi, hne⟩, he⟩ := h
  have key : ∀ i, i < P → v i = 0 := by
    intro i
    induction i with
    | zero => exact fun _ => h0
    | succ i ih =>
      intro hi
      have := he (i + 1) hi
      rw [comp_mv a v hi, if_neg (by omega), Nat.add_sub_cancel, ih (by omega)] at this
      exact (mul_eq_zero.1 this.symm).resolve_left hc
  exact hne (key i hi)

/-- The companion matrix with last coefficient zero has an eigenvector that starts with zero. -/
theorem comp_eigenvector_zero {P : Nat} (hP : 2 ≤ P) {a : Nat → α} (ha : a (P - 1) = 0) :
    Eigenvector P (comp a) 0 fun i => if i = P - 1 then 1 else 0 := by
  refine ⟨⟨P - 1, by omega, by simp⟩, fun i hi => ?_⟩
  rw [comp_mv _ _ hi, zero_mul]
  by_cases h0 : i = 0
  · rw [if_pos h0, sum_eq_zero, neg_zero]
    intro k hk
    by_cases h1 : k = P - 1
    · rw [if_pos h1, h1, ha, zero_mul]
    · rw [if_neg h1, mul_zero]
  · rw [if_neg h0, if_neg (by omega)]

theorem compT_eigenvector {P : Nat} (hP : 0 < P) {a : Nat → α} {p : α} (h : p ^ P + ∑ k ∈ range P, a k * p ^ (P - 1 - k) = 0) :
    Eigenvector P (fun i j => comp a j i) p fun j => p ^ j + ∑ k ∈ range j, a k * p ^ (j - 1 - k) := by
  have step : ∀ j, p ^ (j + 1) + ∑ k ∈ range (j + 1), a k * p ^ (j + 1 - 1 - k) =
      p * (p ^ j + ∑ k ∈ range j, a k * p ^ (j - 1 - k)) + a j := by
    intro j
    rw [sum_range_succ, Nat.add_sub_cancel, Nat.sub_self, pow_zero, mul_one, mul_add, mul_sum, ← add_assoc, pow_succ']
    congr 2
    refine sum_congr rfl fun k hk => ?_
    have := mem_range.1 hk
    rw [show j - k = (j - 1 - k) + 1 by omega, pow_succ]; ring
  refine ⟨⟨0, hP, by simp⟩, fun i hi => ?_⟩
  rw [comp_mv_transpose a _ hi]
  simp only [pow_zero, range_zero, sum_empty, add_zero, mul_one]
  by_cases h1 : i + 1 < P
  · rw [if_pos h1, step]; ring
  · rw [if_neg h1]
    obtain rfl : P = i + 1 := by omega
    rw [step] at h
    linear_combination -h

theorem compT_eigenvector_first {P : Nat} {a : Nat → α} {c : α} {v : Nat → α} (h : Eigenvector P (fun i j => comp a j i) c v) :
    v 0 ≠ 0 := by
  intro h0
  obtain ⟨⟨i, hi, hne⟩, he⟩ := h
  have key : ∀ i, i < P → v i = 0 := by
    intro i
    induction i with
    | zero => exact fun _ => h0
    | succ i ih =>
      intro hi
      have := he i (by omega)
      rw [comp_mv_transpose a v (by omega), if_pos hi, h0, ih (by omega)] at this
      simpa using this
  exact hne (key i hi)

/-- Every eigenvalue of the companion matrix is a root of the denominator. -/
theorem comp_eigen_root {P : Nat} {a : Nat → α} {c : α} {v : Nat → α} (h : Eigenvector P (comp a) c v) :
    c ^ P + ∑ k ∈ range P, a k * c ^ (P - 1 - k) = 0 := by
  obtain ⟨⟨i, hi, hne⟩, he⟩ := h
  have hv : ∀ d, d < P → v (P - 1 - d) = c ^ d * v (P - 1) := by
    intro d
    induction d with
    | zero => intro _; simp
    | succ d ih =>
      intro hd
      have := he (P - 1 - d) (by omega)
      rw [comp_mv a v (by omega), if_neg (by omega), ih (by omega)] at this
      rw [show P - 1 - (d + 1) = P - 1 - d - 1 by omega, this, pow_succ']; ring
  have hl : v (P - 1) ≠ 0 := fun h0 => hne (by
    have := hv (P - 1 - i) (by omega)
    rwa [show P - 1 - (P - 1 - i) = i by omega, h0, mul_zero] at this)
  have h0 := he 0 (by omega)
  rw [comp_mv a v (by omega), if_pos rfl] at h0
  have hv0 := hv (P - 1) (by omega)
  rw [Nat.sub_self] at hv0
  have hs : ∑ k ∈ range P, a k * v k = (∑ k ∈ range P, a k * c ^ (P - 1 - k)) * v (P - 1) := by
    rw [sum_mul]
    refine sum_congr rfl fun k hk => ?_
    have hk := mem_range.1 hk
    have := hv (P - 1 - k) (by omega)
    rw [show P - 1 - (P - 1 - k) = k by omega] at this
    rw [this]; ring
  rw [hs, hv0] at h0
  refine (mul_eq_zero.1 ?_).resolve_right hl
  have hp : c ^ P = c * c ^ (P - 1) := by rw [← pow_succ', show P - 1 + 1 = P by omega]
  rw [hp]
  linear_combination -h0

/-- Every eigenvalue of the transposed companion matrix is a root of the denominator. -/
theorem compT_eigen_root {P : Nat} {a : Nat → α} {c : α} {v : Nat → α} (h : Eigenvector P (fun i j => comp a j i) c v) :
    c ^ P + ∑ k ∈ range P, a k * c ^ (P - 1 - k) = 0 := by
  have h0 := compT_eigenvector_first h
  obtain ⟨⟨i, hi, -⟩, he⟩ := h
  have step : ∀ j, c ^ (j + 1) + ∑ k ∈ range (j + 1), a k * c ^ (j + 1 - 1 - k) =
      c * (c ^ j + ∑ k ∈ range j, a k * c ^ (j - 1 - k)) + a j := by
    intro j
    rw [sum_range_succ, Nat.add_sub_cancel, Nat.sub_self, pow_zero, mul_one, mul_add, mul_sum, ← add_assoc, pow_succ']
    congr 2
    refine sum_congr rfl fun k hk => ?_
    have := mem_range.1 hk
    rw [show j - k = (j - 1 - k) + 1 by omega, pow_succ]; ring
  have hv : ∀ j, j < P → v j = (c ^ j + ∑ k ∈ range j, a k * c ^ (j - 1 - k)) * v 0 := by
    intro j
    induction j with
    | zero => intro _; simp
    | succ j ih =>
      intro hj
      have := he j (by omega)
      rw [comp_mv_transpose a v (by omega), if_pos hj, ih (by omega)] at this
      rw [step]
      linear_combination this
  have hl := he (P - 1) (by omega)
  rw [comp_mv_transpose a v (by omega), if_neg (by omega), hv (P - 1) (by omega)] at hl
  refine (mul_eq_zero.1 ?_).resolve_right h0
  have hs := step (P - 1)
  rw [show P - 1 + 1 = P by omega] at hs
  rw [hs]
  linear_combination -hl

omit [Field α] in
/-- `M` distinct numbers in a list of length `M`: the list has no repetition. -/
theorem list_distinct {M : Nat} {p l : Nat → α} (hp : ∀ m n, m < M → n < M → p m = p n → m = n) (h : ∀ m, m < M → ∃ n, n < M ∧ l n = p m)
    (m n : Nat) (hm : m < M) (hn : n < M) (e : l m = l n) : m = n := by
  classical
  have h1 : (image p (range M)).card = M := by
    rw [card_image_of_injOn, card_range]
    exact fun i hi j hj e => hp i j (by simpa using hi) (by simpa using hj) e
  have h2 : image p (range M) ⊆ image l (range M) := by
    intro c hc
    obtain ⟨i, hi, rfl⟩ := mem_image.1 hc
    obtain ⟨j, hj, e⟩ := h i (mem_range.1 hi)
    exact mem_image.2 ⟨j, mem_range.2 hj, e⟩
  have h3 : (image l (range M)).card = (range M).card := by
    refine le_antisymm card_image_le ?_
    rw [card_range]
    exact h1.symm.le.trans (card_le_card h2)
  exact card_image_iff.1 h3 (by simpa using hm) (by simpa using hn) e

end

section
variable {α : Type} [CommRing α]

/-- Evaluate a polynomial at a signal: `X^e` stands for `w e`. -/
noncomputable def atSignal (w : Nat → α) : α[X] →ₗ[α] α := Polynomial.lsum fun e => LinearMap.toSpanSingleton α α (w e)

theorem atSignal_monomial (w : Nat → α) (c : α) (e : Nat) : atSignal w (C c * X ^ e) = c * w e := by
  rw [atSignal, lsum_apply, C_mul_X_pow_eq_monomial, sum_monomial_index _ _ (by simp)]
  simp

theorem atSignal_desc (w : Nat → α) (L : Nat) (c : Nat → α) : atSignal w (descPoly L c) = ∑ i ∈ range L, c i * w (L - 1 - i) := by
  rw [descPoly, map_sum]
  exact sum_congr rfl fun i _ => atSignal_monomial _ _ _

theorem atSignal_mul (w : Nat → α) (L K : Nat) (c d : Nat → α) :
    atSignal w (descPoly L c * descPoly K d) = ∑ i ∈ range L, c i * ∑ j ∈ range K, d j * w (L - 1 - i + (K - 1 - j)) := by
  rw [descPoly, descPoly, sum_mul_sum, map_sum]
  refine sum_congr rfl fun i _ => ?_
  rw [map_sum, mul_sum]
  refine sum_congr rfl fun j _ => ?_
  rw [← mul_assoc (c i), ← atSignal_monomial w (c i * d j), C_mul, pow_add]
  congr 1; ring

/-- The denominator with its leading one. -/
def monic (a : Nat → α) (k : Nat) : α := if k = 0 then 1 else a (k - 1)

theorem sum_monic (P : Nat) (a : Nat → α) (w : Nat → α) : ∑ j ∈ range (P + 1), monic a j * w j = w 0 + ∑ j ∈ range P, a j * w (j + 1) := by
  rw [sum_range_succ', add_comm]
  simp [monic]

theorem taps_div {K P : Nat} (hK : P < K) {b a q r : Nat → α}
    (h : descPoly K b = descPoly (K - P) q * descPoly (P + 1) (monic a) + descPoly P r) (w : Int → α) (n : Int) :
    taps K b w n = taps (K - P) q (fun n => w n + taps P a w (n - 1)) n + taps P r w (n - (K - P : Nat)) := by
  have e := congrArg (atSignal fun e => w (n - (K - 1 : Nat) + e)) h
  rw [map_add, atSignal_desc, atSignal_mul, atSignal_desc] at e
  unfold taps
  convert e using 2
  · rename_i i hi; have := mem_range.1 hi; congr 2; omega
  · refine sum_congr rfl fun i hi => ?_
    have := mem_range.1 hi
    rw [sum_range_succ', add_comm (∑ _ ∈ _, _)]
    refine congrArg (q i * ·) (congrArg₂ (· + ·) ?_ ?_)
    · simp only [monic, if_true, one_mul]; congr 1; omega
    · refine sum_congr rfl fun j hj => ?_
      have := mem_range.1 hj
      simp only [monic, Nat.add_eq_zero_iff, one_ne_zero, and_false, if_false, Nat.add_sub_cancel]
      congr 2; omega
  · refine sum_congr rfl fun i hi => ?_
    have := mem_range.1 hi
    congr 2; omega

theorem taps_div_rev {K P : Nat} (hK : P < K) {b a q r : Nat → α}
    (h : descPoly K (fun i => b (K - 1 - i)) = descPoly (K - P) q * descPoly (P + 1) (fun j => monic a (P - j)) + descPoly P r)
    (w : Int → α) (n : Int) :
    taps K b w n = taps (K - P) (fun i => q (K - P - 1 - i)) (fun n => w n + taps P a w (n - 1)) n +
      taps P (fun i => r (P - 1 - i)) w n := by
  have e := congrArg (atSignal fun e => w (n - e)) h
  rw [map_add, atSignal_desc, atSignal_mul, atSignal_desc] at e
  rw [← sum_range_reflect, ← sum_range_reflect _ (K - P), ← sum_range_reflect _ P] at e
  unfold taps
  convert e using 2
  · rename_i i hi; have := mem_range.1 hi; congr 2 <;> congr 1 <;> omega
  · refine sum_congr rfl fun i hi => ?_
    have := mem_range.1 hi
    rw [← sum_range_reflect _ (P + 1), sum_range_succ', add_comm (∑ _ ∈ _, _)]
    refine congrArg (q (K - P - 1 - i) * ·) (congrArg₂ (· + ·) ?_ ?_)
    · simp only [monic]; rw [if_pos (by omega), one_mul]; congr 1; omega
    · refine sum_congr rfl fun j hj => ?_
      have := mem_range.1 hj
      simp only [monic]; rw [if_neg (by omega)]
      congr 2
      · omega
      · omega
  · refine sum_congr rfl fun i hi => ?_
    have := mem_range.1 hi
    congr 2; omega

/-- A filter split into a direct part `q` and a remainder `r` delayed by `d`. -/
theorem split_diff {K P Q : Nat} {b a q r : Nat → α} {d : Nat} {x y : Int → α}
    (h : ∀ w n, taps K b w n = taps Q q (fun n => w n + taps P a w (n - 1)) n + taps P r w (n - d))
    (hy : ∀ n, y n = taps P r x n - taps P a y (n - 1)) (n : Int) :
    y (n - d) + taps Q q x n = taps K b x n - taps P a (fun n => y (n - d) + taps Q q x n) (n - 1) := by
  have e1 : taps P a (fun n => y (n - d) + taps Q q x n) (n - 1) = taps P a y (n - d - 1) + taps P a (taps Q q x) (n - 1) := by
    unfold taps
    rw [← sum_add_distrib]
    refine sum_congr rfl fun j _ => ?_
    rw [mul_add, show n - 1 - (j : Int) - d = n - d - 1 - j by ring]
  have e2 : taps P a (taps Q q x) (n - 1) = taps Q q (fun n => taps P a x (n - 1)) n := by
    unfold taps
    simp only [mul_sum]
    rw [sum_comm]
    refine sum_congr rfl fun j _ => sum_congr rfl fun k _ => ?_
    rw [show n - 1 - (k : Int) - j = n - j - 1 - k by ring]; ring
  have e3 : taps Q q (fun n => x n + taps P a x (n - 1)) n = taps Q q x n + taps Q q (fun n => taps P a x (n - 1)) n := by
    unfold taps
    rw [← sum_add_distrib]
    exact sum_congr rfl fun j _ => mul_add _ _ _
  rw [e1, e2, h x n, e3, hy (n - d)]
  ring
end

section
variable {α : Type} [Field α] [StarRing α]

theorem divRem_real {n : Nat} {v u : Nat → α} (hv : ∀ i, star (v i) = v i) (hu : ∀ i, star (u i) = u i) (k t : Nat) :
    star (divRem n v u k t) = divRem n v u k t := by
  induction k generalizing t with
  | zero => exact hu t
  | succ k ih =>
    simp only [divRem]
    split
    · rw [star_sub, star_mul', star_mul', star_inv₀, hv, hv, ih, ih]
    · exact ih t

theorem divQuo_real {n : Nat} {v u : Nat → α} (hv : ∀ i, star (v i) = v i) (hu : ∀ i, star (u i) = u i) (k : Nat) :
    star (divQuo n v u k) = divQuo n v u k := by
  rw [divQuo, star_mul', star_inv₀, hv, divRem_real hv hu]

theorem star_taps (K : Nat) (b : Nat → α) (w : Int → α) (n : Int) :
    star (taps K b w n) = taps K (fun k => star (b k)) (fun n => star (w n)) n := by
  unfold taps
  rw [star_sum]
  exact sum_congr rfl fun k _ => star_mul' _ _

/-- A split of the numerator also splits the conjugated numerator. -/
theorem split_conj {K P Q d : Nat} {b a q r : Nat → α}
    (h : ∀ w n, taps K b w n = taps Q q (fun n => w n + taps P a w (n - 1)) n + taps P r w (n - d)) (w : Int → α) (n : Int) :
    taps K (fun k => star (b k)) w n = taps Q (fun k => star (q k)) (fun n => w n + taps P (fun k => star (a k)) w (n - 1)) n +
      taps P (fun k => star (r k)) w (n - d) := by
  have := congrArg star (h (fun n => star (w n)) n)
  simpa only [star_add, star_taps, star_star] using this
end

end Spec

namespace Phil.Lti
open Torch Torch.Tensor Spec Phil.Mat Finset

variable {α : Type} [Field α] [StarRing α]

omit [StarRing α] in
theorem pad_monic {B P : Nat} {a : Tensor α} {av : Nat → Nat → α} (ha : Rows B P a av) :
    ∃ v, padDim a (-1) 1 0 1 = .ok v ∧ Divisor B (P + 1) false v fun i => monic (av i) := by
  have e : ∀ f : Nat → α, (fun i => if i < 1 then (1 : α) else f (i - 1)) = monic f := fun f => funext fun i => by
    unfold monic
    by_cases h : i = 0
    · rw [if_pos (by omega), if_pos h]
    · rw [if_neg (by omega), if_neg h]
  cases ha with
  | shared f => exact ⟨_, padDim_t1_n1_left _ 1 _ _, by simp only [e]; exact .shared _⟩
  | batched f => exact ⟨_, padDim_t2_n1_left _ _ 1 _ _, by
      rw [show (fun i j => if j < 1 then (1 : α) else av i (j - 1)) = fun i => monic (av i) from funext fun i => e (av i)]
      exact .batched _⟩

omit [StarRing α] in
theorem pad_monic_rev {B P : Nat} {a : Tensor α} {av : Nat → Nat → α} (ha : Rows B P a av) :
    ∃ a' v, flip a (-1) = .ok a' ∧ padDim a' (-1) 0 1 1 = .ok v ∧ Divisor B (P + 1) false v fun i j => if j < P then av i (P - 1 - j) else 1 := by
  cases ha with
  | shared f => exact ⟨_, _, flip_t1_n1 _ _, padDim_t1_n1_right _ 1 _ _, .shared _⟩
  | batched f => exact ⟨_, _, flip_t2_n1 _ _ _, padDim_t2_n1_right _ _ 1 _ _, .batched _⟩

omit [StarRing α] in
theorem polydiv_t2 {B n m : Nat} {v : Tensor α} {vv : Nat → Nat → α} (hv : Divisor B (n + 1) false v vv) (u : Nat → Nat → α) (hnm : n ≤ m) :
    Poly.polydiv (t2 B (m + 1) u) v = .ok (t2 B (m - n + 1) fun i => divQuo n (vv i) (u i),
      t2 B n fun i t => divRem n (vv i) (u i) (m - n + 1) (m - n + 1 + t)) := Poly.polydiv_eq hv u hnm

/-- Splitting a long numerator. -/
theorem diagSplit_eq {B K P : Nat} {a : Tensor α} {av : Nat → Nat → α} (ha : Rows B P a av) (b : Nat → Nat → α) (hK : P + 1 < K) (hP : 0 < P)
    (delayed : Bool) (h0 : delayed = false → ∀ i, av i (P - 1) ≠ 0) :
    ∃ q r : Nat → Nat → α, diagSplit (t2 B K b) a delayed = .ok (t2 B P r, some (t2 B (K - P) q), if delayed then K - P else 0) ∧
      (∀ i w n, taps K (b i) w n = taps (K - P) (q i) (fun n => w n + taps P (av i) w (n - 1)) n +
        taps P (r i) w (n - (if delayed then K - P else 0 : Nat))) ∧
      ((∀ i k, star (b i k) = b i k) → (∀ i k, star (av i k) = av i k) → ∀ i k, star (q i k) = q i k) := by
  obtain ⟨m, rfl⟩ : ∃ m, K = m + 1 := ⟨K - 1, by omega⟩
  have hm : m + 1 - P = m - P + 1 := by omega
  unfold diagSplit
  rw [size_rows ha, size_t2_n1, if_pos hK, hm]
  cases delayed with
  | true =>
    obtain ⟨v, ev, hv⟩ := pad_monic ha
    refine ⟨fun i => divQuo P (monic (av i)) (b i), fun i t => divRem P (monic (av i)) (b i) (m - P + 1) (m - P + 1 + t),
      bind_step ev (bind_step (polydiv_t2 hv b (by omega)) rfl), fun i w n => ?_, fun h1 h2 i k => ?_⟩
    · have := taps_div (K := m + 1) (P := P) (by omega) (a := av i)
        (by rw [hm]; exact divRem_spec (by omega) (v := monic (av i)) (by simp [monic]) (b i)) w n
      rw [hm] at this
      exact this
    · refine divQuo_real (fun j => ?_) (h1 i) _
      unfold monic
      split
      · exact star_one _
      · exact h2 _ _
  | false =>
    obtain ⟨a', v, ea, ev, hv⟩ := pad_monic_rev ha
    refine ⟨_, _, bind_step (flip_t2_n1 _ _ _) (bind_step ea (bind_step ev (bind_step (polydiv_t2 (m := m) hv (fun i j => b i (m + 1 - 1 - j)) (by omega))
      (bind_step (flip_t2_n1 _ _ _) (bind_step (flip_t2_n1 _ _ _) rfl))))), fun i w n => ?_, fun h1 h2 i k => ?_⟩
    · have e : ∀ i, (fun j => if j < P then av i (P - 1 - j) else 1) = (fun j => monic (av i) (P - j)) := fun i => funext fun j => by
        unfold monic
        by_cases hj : j < P
        · rw [if_pos hj, if_neg (by omega)]; congr 1; omega
        · rw [if_neg hj, if_pos (by omega)]
      have := taps_div_rev (K := m + 1) (P := P) (by omega) (b := b i) (a := av i)
        (by rw [hm]; exact divRem_spec (by omega) (v := fun j => monic (av i) (P - j))
              (by rw [Nat.sub_zero, monic, if_neg (by omega)]; exact h0 rfl i) fun j => b i (m + 1 - 1 - j)) w n
      rw [hm] at this
      simp only [e, Bool.false_eq_true, if_false, Nat.cast_zero, sub_zero]
      exact this
    · refine divQuo_real (fun j => ?_) (fun j => h1 i _) _
      split
      · exact h2 _ _
      · exact star_one _

omit [StarRing α] in
theorem delaySignal_eq {B N d : Nat} (y : Nat → Nat → α) (h : d ≤ N) :
    delaySignal (t2 B N y) d = .ok (t2 B N fun i t => if t < d then 0 else y i (t - d)) := by
  unfold delaySignal
  by_cases hd : 0 < d
  · rw [if_pos hd]
    refine bind_step (slice_t2_1 _ _ _ _ _) ((padDim_t2_n1_left _ _ _ _ _).trans (congrArg Except.ok ?_))
    refine t2_congr rfl (by rw [pyStop_neg _ _ hd, pyStart_none]; omega) fun i t _ _ => ?_
    rw [pyStart_none, Nat.add_zero]
  · rw [if_neg hd]
    obtain rfl : d = 0 := by omega
    rfl

omit [StarRing α] in
theorem add_nm_np_fails {n m p : Nat} (f g : Nat → Nat → α) (h : m ≠ p) (hm : m ≠ 1) (hp : p ≠ 1) : Fails (add (t2 n m f) (t2 n p g)) := by
  unfold add zipWith
  rw [shape_t2, shape_t2]
  have : bshape [n, m] [n, p] = none := by simp [bshape, bshapeR, bdim, h, hm, hp]
  rw [this]
  exact ⟨_, rfl⟩

omit [StarRing α] in
theorem size_pos_delay {B N d : Nat} (y : Nat → Nat → α) (h : N < d) : ∃ f : Nat → Nat → α, delaySignal (t2 B N y) d = .ok (t2 B d f) := by
  unfold delaySignal
  rw [if_pos (by omega)]
  refine ⟨fun i t => if t < (d : Nat) then 0 else y i (t - d + pyStart N none), bind_step (slice_t2_1 _ _ _ _ _) ((padDim_t2_n1_left _ _ _ _ _).trans (congrArg Except.ok ?_))⟩
  refine t2_congr rfl ?_ fun i t _ _ => rfl
  rw [pyStop_neg _ _ (by omega), pyStart_none]; omega

end Phil.Lti
