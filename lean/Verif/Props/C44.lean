import Verif.Proof.CubicSpline
import Verif.Proof.Binary64
import Verif.Props.C43
import Verif.Torch.Fails

/-!
# C44: cubic spline upsampling

`Spec.bspline3` is the centred cubic B-spline, as the fourth difference of the truncated cube.  `arangeLen m` is the length of
`torch.arange(-2, 2, 1 / m)` in binary64 arithmetic; the code needs it to be `4 m`, which fails for some `m` (`C44_factor_49`).
-/

namespace Props
open Torch Torch.Tensor Spec Phil Phil.Interp Finset

section
variable {α : Type} [Field α] [LinearOrder α] [IsStrictOrderedRing α] [StarRing α]

/-- **C44**: the result has length `(L-1)m + 1`, its value at `j` is that at `j / m` of the spline with the coefficients of `cspline`,
continued as the chosen padding does, and it passes through the samples but the first one.  Batch size, length, signal, factor, form,
padding and backend are arbitrary.  Missing: the first sample (`C43_first_sample`), factors for which `arange` has the wrong length
(`C44_factor_49`), and two samples with `scipy_padding=False` (`C44_two_samples`). -/
theorem C44_cubic_spline_partial {ext : Option (Op α)} {u : Int} (parallel half : Bool) {B L m : Nat} (hm : 2 ≤ m)
    (ha : arangeLen m = 4 * m) (hL : (if half then 2 else 3) ≤ L) (hrun : SplineRunner ext u parallel L) {r : α}
    (hr : r * r + 4 * r + 1 = 0) (x : Nat → Nat → α) :
    ∃ c y : Nat → Nat → α, cspline ext u r (t2 B L x) parallel half = .ok (t2 B L c) ∧
      cubicSpline ext u r (t2 B L x) m parallel half = .ok (t2 B ((L - 1) * m + 1) y) ∧
      (∀ b j : Nat, j < (L - 1) * m + 1 →
        y b j = ∑ k ∈ Icc (-1 : Int) (L + 1), mirror half L (c b) k * bspline3 ((j : α) / m - k)) ∧
      ∀ b n : Nat, 1 ≤ n → n < L → y b (n * m) = x b n := by
  have h2 : (2 : α) ≠ 0 := by norm_num
  have h3 : (3 : α) ≠ 0 := by norm_num
  have hL2 : 2 ≤ L := by revert hL; split <;> omega
  obtain ⟨c, hc, hs⟩ := C43_cspline_partial (B := B) parallel half hL2 hrun hr h2 h3 x
  refine ⟨c, _, hc, cubicSpline_eq hm ha parallel half hL x c hc, fun b j hj => ?_, fun b n h1 hn => ?_⟩
  · have hm0 : (0 : α) < m := Nat.cast_pos.mpr (by omega)
    have hdiv : j / m ≤ L - 1 := by
      rw [Nat.div_le_iff_le_mul_add_pred (by omega), Nat.mul_comm]; omega
    have key := fun d : Nat => fun hd : d ≤ L - 1 => sum_window (lo := -1) (hi := (L : Int) + 1) (n := (d : Int))
      (q := ((j % m : Nat) : α) / m) (by omega) (by omega) (div_nonneg (Nat.cast_nonneg _) hm0.le) ((div_lt_one hm0).mpr (by exact_mod_cast Nat.mod_lt j (by omega : 0 < m)))
      (mirror half L (c b))
    rw [← key (j / m) hdiv]
    refine sum_congr rfl fun k _ => ?_
    congr 3
    rw [Int.cast_natCast, eq_div_iff hm0.ne', add_mul, div_mul_cancel₀ _ hm0.ne']
    exact_mod_cast (by rw [Nat.mul_comm]; exact Nat.div_add_mod j m)
  · rw [Nat.mul_mod_left, Nat.mul_div_cancel _ (by omega), Nat.cast_zero, zero_div, window_integer]
    exact hs b n h1 hn

example := C44_cubic_spline_partial (ext := none) (u := 1) true false (B := 3) (L := 7) (m := 4) (by decide) (by decide +kernel) (by decide)
  ⟨by decide, fun h => by cases h⟩ C43_pole (fun i t => (i : ℝ) - t)

omit [IsStrictOrderedRing α] in
/-- **C44, `m = 1`**: the signal itself. -/
theorem C44_factor_one (ext : Option (Op α)) (u : Int) (r : α) (parallel half : Bool) (x : Tensor α) :
    cubicSpline ext u r x 1 parallel half = .ok x := by
  unfold cubicSpline
  exact check_step (le_refl 1) rfl

/-- The factors up to 48 are fine. -/
theorem C44_factors : ∀ m < 49, 1 ≤ m → arangeLen m = 4 * m := by decide +kernel

omit [IsStrictOrderedRing α] in
/-- **C44 is false for `m = 49`**: `4 / (1 / 49)` is rounded up, `arange` has 197 elements instead of 196, and `reshape(4, m)` raises, for
every signal.  So it does for 98, 103 and 107. -/
theorem C44_factor_49 (ext : Option (Op α)) (u : Int) (r : α) (parallel half : Bool) (x : Tensor α) :
    arangeLen 49 = 197 ∧ ∀ m ∈ [49, 98, 103, 107], Fails (cubicSpline ext u r x m parallel half) := by
  refine ⟨by decide +kernel, fun m hm => ?_⟩
  have h : m ≠ 1 ∧ arangeLen m ≠ 4 * m := by
    revert hm
    have : ∀ m ∈ [49, 98, 103, 107], m ≠ 1 ∧ arangeLen m ≠ 4 * m := by decide +kernel
    exact this m
  unfold cubicSpline
  refine fails_bind fun _ _ => ?_
  rw [if_neg h.1]
  exact fails_bind fun _ _ => fails_check fun e => absurd e h.2

/-- For every factor, `arange` has the right length or one element too many. -/
theorem C44_arange_length {m : Nat} (h1 : 1 ≤ m) (hm : m < 2 ^ 48) : arangeLen m = 4 * m ∨ arangeLen m = 4 * m + 1 :=
  (arangeLen_cases h1 hm).imp And.right And.right

example := C44_arange_length (m := 1) (by decide) (by decide)

/-- Multiplying the factor by a power of two does not change whether the length is right. -/
theorem C44_arange_scale {m k : Nat} (h1 : 1 ≤ m) (hm : m * 2 ^ k < 2 ^ 48) :
    arangeLen (m * 2 ^ k) = 4 * (m * 2 ^ k) ↔ arangeLen m = 4 * m := by
  have hk : 0 < 2 ^ k := Nat.two_pow_pos k
  have h1' : 1 ≤ m * 2 ^ k := Nat.mul_pos h1 hk
  have hm' : m < 2 ^ 48 := lt_of_le_of_lt (Nat.le_mul_of_pos_right m hk) hm
  have hkq : (0 : ℚ) < 2 ^ k := by positivity
  have e := arangeQuot_double m h1 k
  have hq : arangeQuot (m * 2 ^ k) ≤ 4 * ((m * 2 ^ k : Nat) : ℚ) ↔ arangeQuot m ≤ 4 * m := by
    rw [e]; push_cast; rw [← mul_assoc]; exact mul_le_mul_iff_left₀ hkq
  rcases arangeLen_cases h1 hm' with ⟨a, b⟩ | ⟨a, b⟩ <;> rcases arangeLen_cases h1' hm with ⟨c, d⟩ | ⟨c, d⟩
  · exact iff_of_true d b
  · exact absurd (hq.2 a) (not_le.2 c)
  · exact absurd (hq.1 c) (not_le.2 a)
  · exact iff_of_false (by omega) (by omega)

example := C44_arange_scale (m := 1) (k := 3) (by decide) (by decide)

omit [IsStrictOrderedRing α] in
/-- If `arange` has the wrong length, every call raises (with the right length `C44_cubic_spline_partial` applies). -/
theorem C44_wrong_length (ext : Option (Op α)) (u : Int) (r : α) (parallel half : Bool) (x : Tensor α) {m : Nat} (hm : m ≠ 1)
    (h : arangeLen m ≠ 4 * m) : Fails (cubicSpline ext u r x m parallel half) := by
  unfold cubicSpline
  refine fails_bind fun _ _ => ?_
  rw [if_neg hm]
  exact fails_bind fun _ _ => fails_check fun e => absurd e h

example := C44_wrong_length none 1 (1 / 2 : ℚ) true false (t2 2 7 fun i t => (i : ℚ) * t) (m := 49) (by decide) (by decide +kernel)

omit [IsStrictOrderedRing α] in
/-- **C44 fails for factors of every size**: for `49·2^k`, `103·2^k`, `107·2^k` every call raises. -/
theorem C44_failing_factors (ext : Option (Op α)) (u : Int) (r : α) (parallel half : Bool) (x : Tensor α) {m k : Nat}
    (h : m = 49 ∨ m = 103 ∨ m = 107) (hm : m * 2 ^ k < 2 ^ 48) : Fails (cubicSpline ext u r x (m * 2 ^ k) parallel half) := by
  have hk : 0 < 2 ^ k := Nat.two_pow_pos k
  have h1 : 1 ≤ m := by omega
  refine C44_wrong_length ext u r parallel half x (fun e => ?_) fun e => ?_
  · have := Nat.le_mul_of_pos_right m hk
    omega
  · have := (C44_arange_scale h1 hm).1 e
    rcases h with rfl | rfl | rfl <;> revert this <;> decide +kernel

example := C44_failing_factors none 1 (1 / 2 : ℚ) true false (t2 2 7 fun i t => (i : ℚ) * t) (m := 103) (k := 3) (Or.inr (Or.inl rfl)) (by decide)

/-- **C44 holds for factors of every size**: `m·2^k` with `m ≤ 48`, in particular all powers of two, have the right length. -/
theorem C44_good_factors {m k : Nat} (h1 : 1 ≤ m) (h : m < 49) (hm : m * 2 ^ k < 2 ^ 48) : arangeLen (m * 2 ^ k) = 4 * (m * 2 ^ k) :=
  (C44_arange_scale h1 hm).2 (C44_factors m h h1)

example := C44_good_factors (m := 1) (k := 3) (by decide) (by decide) (by decide)

/-- **C44 is false for two samples** with `scipy_padding=False`: reflect padding by two needs three. -/
theorem C44_two_samples {ext : Option (Op α)} {u : Int} (parallel : Bool) {B m : Nat} (hm : 2 ≤ m)
    (hrun : SplineRunner ext u parallel 2) {r : α} (hr : r * r + 4 * r + 1 = 0) (x : Nat → Nat → α) :
    Fails (cubicSpline ext u r (t2 B 2 x) m parallel false) := by
  obtain ⟨c, hc, -⟩ := C43_cspline_partial (B := B) parallel false (le_refl 2) hrun hr (by norm_num) (by norm_num) x
  unfold cubicSpline
  refine fails_bind fun _ _ => ?_
  rw [if_neg (by omega)]
  refine fails_bind fun d hd => fails_bind fun _ _ => ?_
  cases hc.symm.trans hd
  refine fails_bind fun _ _ => fails_bind fun _ _ => fails_left ?_
  rw [if_neg Bool.false_ne_true]
  refine fails_bind fun e he => ?_
  cases (unsqueeze_t2_1 _ _ _).symm.trans he
  unfold padReflect
  refine fails_bind fun p hp => ?_
  cases (show wrapDim 3 (-1) = .ok 2 from rfl).symm.trans hp
  exact fails_check (by simp [shape_t3])

end

example := C44_two_samples (ext := none) (u := 1) true (B := 3) (m := 4) (by decide) ⟨by decide, fun h => by cases h⟩ C43_pole (fun i t => (i : ℝ) - t)

/-- The hypotheses can be met: three samples, upsampled by two, with the pole of the code. -/
theorem C44_case (x : Nat → Nat → ℝ) : ∃ c y : Nat → Nat → ℝ, cspline none 1 (√3 - 2) (t2 1 3 x) false false = .ok (t2 1 3 c) ∧
    cubicSpline none 1 (√3 - 2) (t2 1 3 x) 2 false false = .ok (t2 1 5 y) ∧ y 0 2 = x 0 1 ∧ y 0 4 = x 0 2 ∧
      y 0 1 = (c 0 1 + 23 * c 0 0 + 23 * c 0 1 + c 0 2) / 48 := by
  obtain ⟨c, y, h, hy, hv, hx⟩ := C44_cubic_spline_partial (B := 1) (L := 3) (m := 2) (ext := none) (u := 1) false false (le_refl 2)
    (by decide +kernel) (by decide) ⟨by decide, fun _ => by decide⟩ C43_pole x
  refine ⟨c, y, h, hy, hx 0 1 (by omega) (by omega), hx 0 2 (by omega) (by omega), ?_⟩
  have key := sum_window (α := ℝ) (lo := -1) (hi := (3 : Int) + 1) (n := 0) (q := 1 / 2) (by omega) (by omega) (by norm_num) (by norm_num)
    (mirror false 3 (c 0))
  rw [hv 0 1 (by omega)]
  have e : ∑ k ∈ Icc (-1 : Int) ((3 : Nat) + 1), mirror false 3 (c 0) k * bspline3 (((1 : Nat) : ℝ) / (2 : Nat) - k) =
      ∑ k ∈ Icc (-1 : Int) (3 + 1), mirror false 3 (c 0) k * bspline3 (((0 : Int) : ℝ) + 1 / 2 - k) :=
    sum_congr rfl fun k _ => by congr 2; norm_num
  rw [e, key]
  simp only [sum_range_succ, range_zero, sum_empty, ← kernel_eq_bspline, kernel, mirror]
  norm_num [abs_of_pos, abs_of_neg]
  rw [show Int.toNat 2 = 2 from rfl]
  ring

end Props
